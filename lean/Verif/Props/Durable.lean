import Verif.Spec.Durable
import Verif.Props.Disk
import Verif.Props.Options
/-!
# C82: what is written with FUA survives a loss of power

Command objects with options (C75) in front of a disk with a volatile cache (`Verif.Spec.Durable`), on all platforms.
-/
set_option linter.unusedSimpArgs false
set_option linter.unusedSectionVars false

namespace Verif.Durable

open Verif.Executer Verif.Coroutine Verif.ExecuterGen Verif.Platform Verif.Spec Verif.Sense Verif.Commands Verif.Options
open Verif.Spec.Disk (Geometry Contents Reply readAt writeAt Each good failed disk perform)
open Verif.Spec.Durable
open Verif.Spec.Options (Opts)

/-- A command object of `read.py`, `write.py` or `compare_and_write.py` as its `execute` runs: the request is made of the attributes the object
then has, and the data the executer gives is yielded as it is (read.py:74-77, write.py:81-84, compare_and_write.py:44-50). -/
def objCommand (L : Lib) (o : Obj) : Command Req (Option Bytes) Result :=
  { request := o.execute L, decode := fun d => .ok (.raw (d.getD none)) }

/-- The command object a caller uses for an operation: any command of C59 as it is constructed, or a READ, WRITE or COMPARE AND WRITE object whose
attributes, after any assignments (the last one counts), have these values. -/
inductive Asks (g : Geometry) (L : Lib) (B : Parse.BufLib) (other : Bytes → Py (List (String × Int))) :
    Command Req (Option Bytes) Result → Op → Prop
  | plain {c op} : Commands.Asks g c op → Asks g L B other (c.command L B other) (.plain op)
  | read10 {lba₀ n₀ bs₀ o sets f lba n} : newRead10 lba₀ n₀ bs₀ = .ok o → f.Valid → f.rel = 0 → Assigned sets (read10Names f) →
      Spec.Options.last sets "logical_block_address" lba₀ = (lba : Nat) → Spec.Options.last sets "transfer_length" n₀ = (n : Nat) →
      Spec.Options.last sets "block_size" bs₀ = g.size → lba < 2 ^ 32 → n < 2 ^ 16 →
      Asks g L B other (objCommand L (o.sets sets)) (.read f lba n)
  | read12 {lba₀ n₀ bs₀ o sets f lba n} : newRead12 lba₀ n₀ bs₀ = .ok o → f.Valid → f.fuaNv = 0 → f.group = 0 → Assigned sets (read12Names f) →
      Spec.Options.last sets "logical_block_address" lba₀ = (lba : Nat) → Spec.Options.last sets "transfer_length" n₀ = (n : Nat) →
      Spec.Options.last sets "block_size" bs₀ = g.size → lba < 2 ^ 32 → n < 2 ^ 32 →
      Asks g L B other (objCommand L (o.sets sets)) (.read f lba n)
  | read16 {lba₀ n₀ bs₀ o sets f lba n} : newRead16 lba₀ n₀ bs₀ = .ok o → f.Valid → f.rel = 0 → Assigned sets (read16Names f) →
      Spec.Options.last sets "logical_block_address" lba₀ = (lba : Nat) → Spec.Options.last sets "transfer_length" n₀ = (n : Nat) →
      Spec.Options.last sets "block_size" bs₀ = g.size → lba < 2 ^ 64 → n < 2 ^ 32 →
      Asks g L B other (objCommand L (o.sets sets)) (.read f lba n)
  | write10 {lba₀ data bs₀ k o sets f lba n} : newWrite10 lba₀ data bs₀ = .ok o → (data.length : Int) = k * bs₀ → f.Valid → f.rel = 0 →
      Assigned sets (writeNames f) → Spec.Options.last sets "logical_block_address" lba₀ = (lba : Nat) →
      Spec.Options.last sets "transfer_length" k = (n : Nat) → data.length = n * g.size → lba < 2 ^ 32 → n < 2 ^ 16 →
      Asks g L B other (objCommand L (o.sets sets)) (.write f lba data)
  | write12 {lba₀ data bs₀ k o sets f lba n} : newWrite12 lba₀ data bs₀ = .ok o → (data.length : Int) = k * bs₀ → f.Valid → f.rel = 0 →
      Assigned sets (writeNames f) → Spec.Options.last sets "logical_block_address" lba₀ = (lba : Nat) →
      Spec.Options.last sets "transfer_length" k = (n : Nat) → data.length = n * g.size → lba < 2 ^ 32 → n < 2 ^ 32 →
      Asks g L B other (objCommand L (o.sets sets)) (.write f lba data)
  | write16 {lba₀ data bs₀ k o sets f lba n} : newWrite16 lba₀ data bs₀ = .ok o → (data.length : Int) = k * bs₀ → f.Valid → f.rel = 0 →
      f.restricted = 0 → Assigned sets (writeNames f) → Spec.Options.last sets "logical_block_address" lba₀ = (lba : Nat) →
      Spec.Options.last sets "transfer_length" k = (n : Nat) → data.length = n * g.size → lba < 2 ^ 64 → n < 2 ^ 32 →
      Asks g L B other (objCommand L (o.sets sets)) (.write f lba data)
  | exchange {lba₀ old new n₀ bs₀ o sets f lba n} : newCompareAndWrite lba₀ (old ++ new) n₀ bs₀ = .ok o → f.Valid → f.rel = 0 →
      Assigned sets (writeNames f) → Spec.Options.last sets "logical_block_address" lba₀ = (lba : Nat) →
      Spec.Options.last sets "number_of_logical_blocks" n₀ = (n : Nat) → old.length = n * g.size → new.length = n * g.size →
      lba < 2 ^ 64 → n < 2 ^ 8 →
      Asks g L B other (objCommand L (o.sets sets)) (.exchange f lba old new)

/-! ## What the disk reads in the command blocks -/

/-- What the disk makes of a command block with options: the task, whether it is forced, whether it is refused. -/
structure Reads (cdb data : Bytes) (task : Cdb.Meaning) (f : Opts) : Prop where
  op25 : cdb.getD 0 0 ≠ 0x25
  op9E : cdb.getD 0 0 ≠ 0x9E
  task : Cdb.decode cdb data = some task
  forced : forced cdb = decide (f.fua = 1)
  refused : refused cdb = decide (f.protect ≠ 0 ∨ f.rel ≠ 0 ∨ f.naca ≠ 0)

theorem flags_bits (f : Opts) (h : f.Valid) : getBits (Spec.Options.flags f) 5 8 = f.protect ∧ getBits (Spec.Options.flags f) 3 4 = f.fua ∧
    getBits (Spec.Options.flags f) 0 1 = f.rel := by
  obtain ⟨h1, h2, h3, h4, h5, -⟩ := h
  have e : (Spec.Options.flags f).toNat = f.protect * 32 + f.dpo * 16 + f.fua * 8 + f.fuaNv * 2 + f.rel := by
    simp [Spec.Options.flags, byte]; omega
  simp only [getBits, e]
  refine ⟨?_, ?_, ?_⟩ <;> simp <;> omega

theorem control_bit (n v : Nat) (hn : n < 2) (hv : v < 4) : getBits (Spec.Options.control n v) 2 3 = n := by
  have e : (Spec.Options.control n v).toNat = v * 64 + n * 4 := by
    simp [Spec.Options.control, byte]; omega
  simp only [getBits, e]
  simp; omega

/-- The options of a block whose byte 1 is `flags` and whose last byte is `control`. -/
theorem reads_of (cdb data : Bytes) (task : Cdb.Meaning) (f : Opts) (h : f.Valid) (hop : hasOptions cdb = true)
    (h1 : cdb.getD 1 0 = Spec.Options.flags f) (hl : ∃ pre, cdb = pre ++ [Spec.Options.control f.naca f.vendor]) (ht : Cdb.decode cdb data = some task) :
    Reads cdb data task f := by
  obtain ⟨b1, b2, b3⟩ := flags_bits f h
  obtain ⟨-, -, h3, -, -, -, -, h8, h9⟩ := id h
  have b4 := control_bit f.naca f.vendor h8 h9
  replace hl : cdb.getLastD 0 = Spec.Options.control f.naca f.vendor := by
    obtain ⟨pre, rfl⟩ := hl
    simp
  refine ⟨?_, ?_, ht, ?_, ?_⟩
  · intro e; rw [hasOptions, e] at hop; exact absurd hop (by decide)
  · intro e; rw [hasOptions, e] at hop; exact absurd hop (by decide)
  · rw [Bool.eq_iff_iff]
    simp only [Durable.forced, hop, Cdb.bit, h1, b2, Bool.true_and, beq_iff_eq, decide_eq_true_eq]
  · rw [Bool.eq_iff_iff]
    simp only [Durable.refused, hop, Cdb.bit, h1, hl, b1, b3, b4, Bool.true_and, Bool.or_eq_true, bne_iff_ne, ne_eq, decide_eq_true_eq, or_assoc]

macro "optioned" "[" ls:Lean.Parser.Tactic.simpLemma,* "]" : tactic =>
  `(tactic| simp [Cdb.decode, Cdb.fld, Cdb.bit, getBits, slice, List.take_append, List.drop_append, List.drop_eq_nil_of_le,
    List.take_of_length_le, Nat.mod_eq_of_lt, Spec.Options.cdb10, Spec.Options.cdb12, Spec.Options.cdb16, Spec.Options.compareAndWrite, $ls,*])

theorem reads10 (op : UInt8) (f : Opts) (h : f.Valid) (a n : Nat) (ha : a < 2 ^ 32) (hn : n < 2 ^ 16) (data : Bytes) :
    (op = 0x28 → Reads (Spec.Options.cdb10 op f a n) data (.read a n) f) ∧ (op = 0x2A → Reads (Spec.Options.cdb10 op f a n) data (.write a n) f) := by
  constructor <;> rintro rfl <;> refine reads_of _ _ _ f h (by simp [hasOptions, Spec.Options.cdb10]) (by simp [Spec.Options.cdb10]) ⟨_, rfl⟩ ?_
  all_goals optioned [ha, hn]

theorem reads12 (op : UInt8) (f : Opts) (h : f.Valid) (a n : Nat) (ha : a < 2 ^ 32) (hn : n < 2 ^ 32) (data : Bytes) :
    (op = 0xA8 → Reads (Spec.Options.cdb12 op f a n) data (.read a n) f) ∧ (op = 0xAA → Reads (Spec.Options.cdb12 op f a n) data (.write a n) f) := by
  constructor <;> rintro rfl <;> refine reads_of _ _ _ f h (by simp [hasOptions, Spec.Options.cdb12]) (by simp [Spec.Options.cdb12])
    ⟨_ :: Spec.Options.flags f :: (be 4 a ++ be 4 n ++ [byte f.group]), by simp only [Spec.Options.cdb12]; simp; rfl⟩ ?_
  all_goals optioned [ha, hn]

theorem reads16 (op : UInt8) (f : Opts) (h : f.Valid) (a n : Nat) (ha : a < 2 ^ 64) (hn : n < 2 ^ 32) (data : Bytes) :
    (op = 0x88 → Reads (Spec.Options.cdb16 op f a n) data (.read a n) f) ∧ (op = 0x8A → Reads (Spec.Options.cdb16 op f a n) data (.write a n) f) := by
  constructor <;> rintro rfl <;> refine reads_of _ _ _ f h (by simp [hasOptions, Spec.Options.cdb16]) (by simp [Spec.Options.cdb16])
    ⟨_ :: Spec.Options.flags f :: (be 8 a ++ be 4 n ++ [byte (f.restricted * 128 + f.group)]), by simp only [Spec.Options.cdb16]; simp; rfl⟩ ?_
  all_goals optioned [ha, hn]

theorem readsExchange (f : Opts) (h : f.Valid) (a n : Nat) (ha : a < 2 ^ 64) (hn : n < 2 ^ 8) (data : Bytes) :
    Reads (Spec.Options.compareAndWrite f a n) data (.compareAndWrite a n) f := by
  refine reads_of _ _ _ f h (by simp [hasOptions, Spec.Options.compareAndWrite]) (by simp [Spec.Options.compareAndWrite])
    ⟨_ :: Spec.Options.flags f :: (be 8 a ++ [0, 0, 0, byte n, byte f.group]), by simp only [Spec.Options.compareAndWrite]; simp; rfl⟩ ?_
  optioned [ha, hn, beNat]

theorem plain_of (cdb : Bytes) (h : hasOptions cdb = false ∨ cdb.getD 1 0 = 0) (hl : ∃ pre, cdb = pre ++ [0]) :
    Durable.forced cdb = false ∧ Durable.refused cdb = false := by
  replace hl : cdb.getLastD 0 = 0 := by
    obtain ⟨pre, rfl⟩ := hl
    simp
  rcases h with h | h
  · constructor
    · simp only [Durable.forced, h, Bool.false_and]
    · simp only [Durable.refused, h, hl, Bool.false_and, Bool.false_or]; decide
  · constructor
    · simp only [Durable.forced, Cdb.bit, h]
      rw [show (getBits 0 3 4 == 1) = false by decide, Bool.and_false]
    · simp only [Durable.refused, Cdb.bit, h, hl]
      rw [show (getBits 0 5 8 != 0 || getBits 0 0 1 != 0) = false by decide, Bool.and_false]; decide

/-- Commands as they are constructed have no options. -/
theorem plain_reads (L : Lib) {g : Geometry} {c : Cmd} {op : Disk.Op} (h : Commands.Asks g c op) {q : Req} (hq : Cdb.request L c.cdb = .ok q) :
    Durable.forced q.cdb = false ∧ Durable.refused q.cdb = false := by
  have f : ∀ {w : Nat} {n : Nat}, n < 2 ^ w → Cdb.Fits w n := fun h => ⟨by omega, by exact_mod_cast h⟩
  have t6 : ∀ o a n, o = 0x08 ∨ o = 0x0A → Durable.forced (Cdb.cdb6 o a n) = false ∧ Durable.refused (Cdb.cdb6 o a n) = false := by
    rintro o a n (rfl | rfl) <;> exact plain_of _ (.inl (by simp [hasOptions, Cdb.cdb6])) ⟨byte _ :: (be 3 a ++ [byte n]), rfl⟩
  have t10 : ∀ o a n, Durable.forced (Cdb.cdb10 o a n) = false ∧ Durable.refused (Cdb.cdb10 o a n) = false :=
    fun o a n => plain_of _ (.inr (by simp [Cdb.cdb10])) ⟨_, rfl⟩
  have t12 : ∀ o a n, Durable.forced (Cdb.cdb12 o a n) = false ∧ Durable.refused (Cdb.cdb12 o a n) = false :=
    fun o a n => plain_of _ (.inr (by simp [Cdb.cdb12])) ⟨byte o :: 0 :: (be 4 a ++ be 4 n ++ [0]), by simp [Cdb.cdb12]⟩
  have t16 : ∀ o a n, Durable.forced (Cdb.cdb16 o a n) = false ∧ Durable.refused (Cdb.cdb16 o a n) = false :=
    fun o a n => plain_of _ (.inr (by simp [Cdb.cdb16])) ⟨byte o :: 0 :: (be 8 a ++ be 4 n ++ [0]), by simp [Cdb.cdb16]⟩
  cases h with
  | ready => cases (Cdb.C36_test_unit_ready L).symm.trans hq; decide
  | capacity10 => cases (Cdb.C36_read_capacity10 L 0 0 (by simp [Cdb.Fits]) (by simp [Cdb.Fits])).symm.trans hq; decide
  | capacity16 => cases (Cdb.C36_read_capacity16 L 0 0 (by simp [Cdb.Fits]) (by simp [Cdb.Fits])).symm.trans hq; decide
  | read6 h1 h2 h3 =>
    cases (Cdb.read6_range L _ _ _ (f h1) (f h3)).symm.trans hq
    exact t6 _ _ _ (.inl rfl)
  | read6_256 h1 h2 =>
    cases (Cdb.read6_range L _ 0 512 (f h1) (by simp [Cdb.Fits])).symm.trans hq
    exact t6 _ _ _ (.inl rfl)
  | read10 h1 h2 => cases (Cdb.C26_read10 L _ _ _ (f h1) (f h2)).symm.trans hq; exact t10 _ _ _
  | read12 h1 h2 => cases (Cdb.C26_read12 L _ _ _ (f h1) (f h2)).symm.trans hq; exact t12 _ _ _
  | read16 h1 h2 => cases (Cdb.C26_read16 L _ _ _ (f h1) (f h2)).symm.trans hq; exact t16 _ _ _
  | write6 h1 =>
    obtain ⟨-, k, -, -, -, -, rfl⟩ := (Cdb.C28_write6 L _ _ _ q (by omega)).1 hq
    exact t6 _ _ _ (.inr rfl)
  | write10 =>
    obtain ⟨-, k, -, -, -, rfl⟩ := (Cdb.C28_write10 L _ _ _ q).1 hq
    exact t10 _ _ _
  | write12 =>
    obtain ⟨-, k, -, -, -, -, rfl⟩ := (Cdb.C28_write12 L _ _ _ q).1 hq
    exact t12 _ _ _
  | write16 =>
    obtain ⟨-, k, -, -, -, rfl⟩ := (Cdb.C28_write16 L _ _ _ q).1 hq
    exact t16 _ _ _
  | fill10 h1 h2 h3 h4 =>
    obtain ⟨-, -, -, rfl⟩ := (Cdb.C30_partial L _ _ _ g.size q).1.1 hq
    exact t10 _ _ _
  | fill16 h1 h2 h3 h4 =>
    obtain ⟨-, -, -, rfl⟩ := (Cdb.C30_partial L _ _ _ g.size q).2.1 hq
    exact t16 _ _ _
  | exchange =>
    obtain ⟨-, -, -, -, rfl⟩ := (Cdb.C31_partial L _ _ _ _ q).1 hq
    exact plain_of _ (.inr (by simp [Req.cdb, Spec.Cdb.compareAndWrite])) ⟨[0x89, 0] ++ be 8 _ ++ [0, 0, 0, byte _, 0], by
      simp only [Req.cdb, Spec.Cdb.compareAndWrite, List.append_assoc]; rfl⟩
  | discard =>
    obtain ⟨cdb, params, rfl, -, h1, rfl, -⟩ := (Cdb.C32_partial L _).1 q hq
    exact plain_of _ (.inr (by simp [Req.cdb, Spec.Cdb.unmap])) ⟨_, rfl⟩

/-! ## One command -/

section step

variable {g : Geometry} {out : Req → Answer → Except (Exn (DevErr Sense)) (Option (Option Bytes))} (L : Lib) (B : Parse.BufLib)
  (other : Bytes → Py (List (String × Int)))

/-- What a command asks of the disk, apart from the cache. -/
structure Base (g : Geometry) (out : Req → Answer → Except (Exn (DevErr Sense)) (Option (Option Bytes))) (cmd : Command Req (Option Bytes) Result)
    (op : Op) (q : Req) : Prop where
  request : cmd.request = .ok q
  forced : Durable.forced q.cdb = decide (op.opts.fua = 1)
  refused : Durable.refused q.cdb = decide (op.opts.protect ≠ 0 ∨ op.opts.rel ≠ 0 ∨ op.opts.naca ≠ 0)
  blocks : op.opts.fua = 1 → blocksOf (Cdb.decode q.cdb (asked q).toDevice) = op.base.span g
  disk : ∀ m, (disk g m (asked q)).2 = (op.base.run g m).2 ∧ Shows (decoded cmd (out q (disk g m (asked q)).1)) (op.base.run g m).1
  status : op.opts.fua = 1 → ∀ m, (Disk.disk g m (asked q)).1.status = 0 ↔ ¬ Reply.isFailed (op.base.run g m).1

theorem base_plain (hg : Valid g) (hD : Delivers out) {c : Cmd} {op : Disk.Op} (h : Commands.Asks g c op) :
    ∃ q, Base g out (c.command L B other) (.plain op) q := by
  obtain ⟨q, hq, -⟩ := step L B other (fun _ => 0) hg hD h
  obtain ⟨h1, h2⟩ := plain_reads L h hq
  have no : ¬ (0 : Nat) = 1 := by decide
  refine ⟨q, hq, h1, h2, fun h => (no h).elim, fun m => ?_, fun h => (no h).elim⟩
  obtain ⟨q', hq', h3, h4⟩ := step L B other m hg hD h
  cases hq.symm.trans hq'
  exact ⟨h3, h4⟩

theorem disk_reads {cdb data : Bytes} {task : Cdb.Meaning} {f : Opts} (h : Reads cdb data task f) (m : Contents) (q : Req) (hc : (asked q).cdb = cdb)
    (hd : (asked q).toDevice = data) : disk g m (asked q) = perform g m data task := by
  unfold disk
  rw [hc, hd, if_neg h.op25, if_neg h.op9E, h.task]

theorem base_read (hD : Delivers out) (o : Obj) (cdb : Bytes) (len : Int) (f : Opts) (lba n : Nat) (hr : o.execute L = .ok (.read cdb len))
    (hlen : len.toNat = n * g.size) (h : Reads cdb [] (.read lba n) f) : ∃ q, Base g out (objCommand L o) (.read f lba n) q := by
  refine ⟨_, hr, h.forced, h.refused, fun _ => ?_, fun m => ?_, fun _ m => ?_⟩
  · show blocksOf (Cdb.decode cdb []) = _
    rw [h.task]; rfl
  · rw [disk_reads h m (.read cdb len) rfl rfl]
    simp only [perform, Op.base, Disk.Op.run]
    split
    · refine ⟨rfl, ?_⟩
      simp only [Shows]
      rw [hD.read _ _ _ (by rw [readAt_length, hlen])]
      simp [decoded, objCommand]
    · exact ⟨rfl, by obtain ⟨raw, s, e, hs⟩ := hD.fails (.read cdb len) 5 0x21 0 (by decide) (by decide) (by decide); exact ⟨raw, s, by rw [e]; rfl, hs⟩⟩
  · rw [disk_reads h m (.read cdb len) rfl rfl]
    simp only [perform, Op.base, Disk.Op.run]
    split <;> simp [good, failed, Reply.isFailed]

theorem base_write (hD : Delivers out) (hs : 0 < g.size) (o : Obj) (cdb data : Bytes) (f : Opts) (lba n : Nat) (hr : o.execute L = .ok (.write cdb data))
    (hlen : data.length = n * g.size) (h : Reads cdb data (.write lba n) f) : ∃ q, Base g out (objCommand L o) (.write f lba data) q := by
  have hn : data.length / g.size = n := by rw [hlen, Nat.mul_div_cancel _ hs]
  refine ⟨_, hr, h.forced, h.refused, fun _ => ?_, fun m => ?_, fun _ m => ?_⟩
  · show blocksOf (Cdb.decode cdb data) = (lba, data.length / g.size)
    rw [h.task, hn]; rfl
  · rw [disk_reads h m (.write cdb data) rfl rfl]
    simp only [perform, Op.base, Disk.Op.run, hn, ← hlen, List.take_length]
    split
    · refine ⟨rfl, ?_⟩
      simp only [Shows]
      rw [hD.write]
      simp [decoded, objCommand]
    · exact ⟨rfl, by obtain ⟨raw, s, e, hs⟩ := hD.fails (.write cdb data) 5 0x21 0 (by decide) (by decide) (by decide); exact ⟨raw, s, by rw [e]; rfl, hs⟩⟩
  · rw [disk_reads h m (.write cdb data) rfl rfl]
    simp only [perform, Op.base, Disk.Op.run, hn]
    split <;> simp [good, failed, Reply.isFailed]

theorem base_exchange (hD : Delivers out) (hs : 0 < g.size) (o : Obj) (cdb old new : Bytes) (f : Opts) (lba n : Nat)
    (hr : o.execute L = .ok (.write cdb (old ++ new))) (hold : old.length = n * g.size) (hnew : new.length = n * g.size)
    (h : Reads cdb (old ++ new) (.compareAndWrite lba n) f) : ∃ q, Base g out (objCommand L o) (.exchange f lba old new) q := by
  have hn : old.length / g.size = n := by rw [hold, Nat.mul_div_cancel _ hs]
  have ht : (old ++ new).take (n * g.size) = old := by rw [← hold, List.take_left]
  have ht2 : ((old ++ new).drop (n * g.size)).take (n * g.size) = new := by
    rw [← hold, List.drop_left, hold, ← hnew, List.take_length]
  refine ⟨_, hr, h.forced, h.refused, fun _ => ?_, fun m => ?_, fun _ m => ?_⟩
  · show blocksOf (Cdb.decode cdb (old ++ new)) = (lba, old.length / g.size)
    rw [h.task, hn]; rfl
  · rw [disk_reads h m (.write cdb (old ++ new)) rfl rfl]
    simp only [perform, Op.base, Disk.Op.run, hn, ht, ht2]
    rw [hold]
    split
    · split
      · refine ⟨rfl, ?_⟩
        simp only [Shows]
        rw [hD.write]
        simp [decoded, objCommand]
      · exact ⟨rfl, by obtain ⟨raw, s, e, hs⟩ := hD.fails (.write cdb (old ++ new)) 0x0E 0x1D 0 (by decide) (by decide) (by decide); exact ⟨raw, s, by rw [e]; rfl, hs⟩⟩
    · exact ⟨rfl, by obtain ⟨raw, s, e, hs⟩ := hD.fails (.write cdb (old ++ new)) 5 0x21 0 (by decide) (by decide) (by decide); exact ⟨raw, s, by rw [e]; rfl, hs⟩⟩
  · rw [disk_reads h m (.write cdb (old ++ new)) rfl rfl]
    simp only [perform, Op.base, Disk.Op.run, hn, ht, ht2]
    rw [hold]
    split
    · split <;> simp [good, failed, Reply.isFailed]
    · simp [good, failed, Reply.isFailed]

theorem base (hg : Valid g) (hD : Delivers out) {cmd : Command Req (Option Bytes) Result} {op : Op} (h : Asks g L B other cmd op) :
    ∃ q, Base g out cmd op q := by
  have hs := hg.size.1
  have hl : ∀ n : Nat, ((g.size : Int) * n).toNat = n * g.size := fun n => by rw [Int.mul_comm]; simp [Int.toNat_mul]
  cases h with
  | plain h => exact base_plain L B other hg hD h
  | read10 h1 h2 h3 h4 h5 h6 h7 h8 h9 =>
    exact base_read L hD _ _ _ _ _ _ (C75_read10 L _ _ _ _ _ _ _ _ _ h1 h2 h3 h4 h5 h6 h7 h8 h9) (hl _) ((reads10 0x28 _ h2 _ _ h8 h9 _).1 rfl)
  | read12 h1 h2 h3 h3' h4 h5 h6 h7 h8 h9 =>
    exact base_read L hD _ _ _ _ _ _ (C75_read12 L _ _ _ _ _ _ _ _ _ h1 h2 h3 h3' h4 h5 h6 h7 h8 h9) (hl _) ((reads12 0xA8 _ h2 _ _ h8 h9 _).1 rfl)
  | read16 h1 h2 h3 h4 h5 h6 h7 h8 h9 =>
    exact base_read L hD _ _ _ _ _ _ (C75_read16 L _ _ _ _ _ _ _ _ _ h1 h2 h3 h4 h5 h6 h7 h8 h9) (hl _) ((reads16 0x88 _ h2 _ _ h8 h9 _).1 rfl)
  | write10 h1 hk h2 h3 h4 h5 h6 h7 h8 h9 =>
    exact base_write L hD hs _ _ _ _ _ _ (C75_write10 L _ _ _ _ _ _ _ _ _ h1 hk h2 h3 h4 h5 h6 h8 h9) h7 ((reads10 0x2A _ h2 _ _ h8 h9 _).2 rfl)
  | write12 h1 hk h2 h3 h4 h5 h6 h7 h8 h9 =>
    exact base_write L hD hs _ _ _ _ _ _ (C75_write12 L _ _ _ _ _ _ _ _ _ h1 hk h2 h3 h4 h5 h6 h8 h9) h7 ((reads12 0xAA _ h2 _ _ h8 h9 _).2 rfl)
  | write16 h1 hk h2 h3 h0 h4 h5 h6 h7 h8 h9 =>
    exact base_write L hD hs _ _ _ _ _ _ (C75_write16 L _ _ _ _ _ _ _ _ _ h1 hk h2 h3 h0 h4 h5 h6 h8 h9) h7 ((reads16 0x8A _ h2 _ _ h8 h9 _).2 rfl)
  | exchange h1 h2 h3 h4 h5 h6 h7 h7' h8 h9 =>
    exact base_exchange L hD hs _ _ _ _ _ _ _ (C75_compareAndWrite L _ _ _ _ _ _ _ _ _ h1 h2 h3 h4 h5 h6 h8 h9) h7 h7'
      (readsExchange _ h2 _ _ h8 h9 _)

/-- One command in front of the disk with its cache. -/
theorem step_cached (hD : Delivers out) {cmd : Command Req (Option Bytes) Result} {op : Op} {q : Req} (h : Base g out cmd op q) (s : State) :
    (cached g s (asked q)).2 = (op.run g s).2 ∧ Shows (decoded cmd (out q (cached g s (asked q)).1)) (op.run g s).1 := by
  have hf : ∀ key asc ascq, key < 16 → asc < 256 → ascq < 256 → Shows (decoded cmd (out q (failed key asc ascq))) (.failed key asc ascq) := by
    intro key asc ascq h1 h2 h3
    obtain ⟨raw, s, e, hs⟩ := hD.fails q key asc ascq h1 h2 h3
    exact ⟨raw, s, by rw [e]; rfl, hs⟩
  have hc : (asked q).cdb = q.cdb := by cases q <;> rfl
  unfold cached Op.run
  simp only [hc, h.forced, h.refused]
  generalize s.next = s
  by_cases ha : s.attention = true
  · simp only [ha, if_true]
    exact ⟨trivial, hf 6 0x29 0 (by decide) (by decide) (by decide)⟩
  · simp only [ha, if_false, decide_eq_true_eq]
    by_cases hr : op.opts.protect ≠ 0 ∨ op.opts.rel ≠ 0 ∨ op.opts.naca ≠ 0
    · simp only [if_pos hr]
      exact ⟨rfl, hf 5 0x24 0 (by decide) (by decide) (by decide)⟩
    · simp only [if_neg hr]
      obtain ⟨h1, h2⟩ := h.disk s.seen
      refine ⟨?_, h2⟩
      rw [h1]
      by_cases hfu : op.opts.fua = 1
      · have := h.status hfu s.seen
        by_cases hst : (Disk.disk g s.seen (asked q)).1.status = 0
        · simp [hfu, hst, h.blocks hfu, this.1 hst, hc]
        · have h3 : ¬ ¬ Reply.isFailed (op.base.run g s.seen).1 := fun h => hst (this.2 h)
          simp [hfu, hst, h3]
      · simp [hfu]

/-- A sequence of commands. -/
theorem askAll_cached (hg : Valid g) (hD : Delivers out) {cmds : List (Command Req (Option Bytes) Result)} {ops : List Op}
    (h : Each (Asks g L B other) cmds ops) (s : State) :
    Each Shows (askAll (cached g) out cmds s).1 (runOps g ops s).1 ∧ (askAll (cached g) out cmds s).2 = (runOps g ops s).2 := by
  induction h generalizing s with
  | nil => exact ⟨.nil, rfl⟩
  | @cons c op cs ops h _ ih =>
    obtain ⟨q, hb⟩ := base L B other hg hD h
    obtain ⟨hm, hs⟩ := step_cached hD hb s
    have := ih (op.run g s).2
    simp only [askAll, hb.request, runOps]
    rw [hm]
    exact ⟨.cons hs this.1, this.2⟩

end step

/-- Whatever the disk refuses, it says so in sense data. -/
theorem cached_parses (g : Geometry) : ∀ s q, (cached g s q).1.status ≠ 0 → ∃ sn, getSense (padded 255 (cached g s q).1.sense) = .ok sn := by
  intro s q h
  have hf : ∀ key asc, key < 16 → asc < 256 → ∃ sn, getSense (padded 255 (failed key asc 0).sense) = .ok sn := by
    intro key asc h1 h2
    obtain ⟨s, hs, -⟩ := getSense_says _ (by rw [padded_length]; decide) key asc 0
      (reports_padded _ _ _ _ (failed_reports key asc 0 h1 h2 (by decide)))
    exact ⟨_, hs⟩
  unfold cached at h ⊢
  generalize s.next = s at h ⊢
  by_cases ha : s.attention = true
  · simp only [ha, if_true]
    exact hf _ _ (by decide) (by decide)
  · by_cases hr : Durable.refused q.cdb = true
    · simp only [ha, hr, if_true]
      exact hf _ _ (by decide) (by decide)
    · simp only [ha, hr] at h ⊢
      exact disk_parses g _ _ h

/-- Every command of a list that the platform can carry. -/
def Carried (ok : Req → Prop) (cmds : List (Command Req (Option Bytes) Result)) : Prop := ∀ c ∈ cmds, ∀ q, c.request = .ok q → ok q

variable {K T : Type} [DecidableEq K] (L : Lib) (B : Parse.BufLib) (other : Bytes → Py (List (String × Int)))

/-- **C82, sessions on Linux.** Any sequence of commands of C59 and of READ, WRITE and COMPARE AND WRITE objects with options, in front of a disk with a
volatile cache that moves data to the medium and loses power as it likes: each caller sees the reply of the corresponding operation and the disk
ends in the corresponding state. -/
theorem C82_linux (l : Bool) (g : Geometry) (hg : Valid g) (alloc : Nat → Alloc) (t : Int) (ht : 0 ≤ t ∧ t < 2 ^ 32)
    (cmds : List (Command Req (Option Bytes) Result)) (ops : List Op) (hask : Each (Asks g L B other) cmds ops) (hok : Carried (LinuxOk alloc) cmds)
    (w : W Handle K (Option Bytes) (DevErr Sense) (World (State × Option Bytes))) (s : State) (hw : LinuxIdle w.st w.os s) :
    ∃ w' as, RunAll (machine (T := T) (Linux.sgBlocking (lp64 l) getSense (Linux.sgDevice l (cached g))).plat (Linux.prepare (lp64 l) alloc t))
        cmds w as w' ∧ Each Shows as (runOps g ops s).1 ∧ LinuxIdle w'.st w'.os (runOps g ops s).2 := by
  obtain ⟨w', h1, h2⟩ := C51_linux (K := K) (T := T) l getSense (cached g) alloc t ht
    (fun m q h => cached_parses g m q (by intro h0; rw [h0] at h; simp at h)) cmds hok w s hw
  obtain ⟨e1, e2⟩ := askAll_cached L B other hg outcome_delivers hask s
  exact ⟨w', _, h1, e1, by rw [← e2]; exact h2⟩

/-- **C82, sessions on Solaris.** -/
theorem C82_solaris (l : Bool) (g : Geometry) (hg : Valid g) (alloc : Nat → Alloc) (t : Int) (ht : 0 ≤ t ∧ t < 2 ^ 15)
    (cmds : List (Command Req (Option Bytes) Result)) (ops : List Op) (hask : Each (Asks g L B other) cmds ops) (hok : Carried (SolarisOk alloc) cmds)
    (w : W Handle K (Option Bytes) (DevErr Sense) (Solaris.SolWorld State)) (s : State) (hw : SolarisIdle w.st w.os s) :
    ∃ w' as, RunAll (machine (T := T) (Solaris.solBlocking (lp64 l) getSense (Solaris.uscsiDevice l (cached g))).plat (Solaris.prepare (lp64 l) alloc t))
        cmds w as w' ∧ Each Shows as (runOps g ops s).1 ∧ SolarisIdle w'.st w'.os (runOps g ops s).2 := by
  obtain ⟨w', h1, h2⟩ := C51_solaris (K := K) (T := T) l getSense (cached g) alloc t ht
    (fun m q h => cached_parses g m q (by intro h0; rw [h0] at h; simp at h)) cmds hok w s hw
  obtain ⟨e1, e2⟩ := askAll_cached L B other hg outcome_delivers hask s
  exact ⟨w', _, h1, e1, by rw [← e2]; exact h2⟩

/-- **C82, sessions on AIX**, with either ioctl binding. -/
theorem C82_aix (b : Aix.Binding) (g : Geometry) (hg : Valid g) (alloc : Nat → Alloc) (t : Int) (ht : 0 ≤ t ∧ t < 2 ^ 32)
    (cmds : List (Command Req (Option Bytes) Result)) (ops : List Op) (hask : Each (Asks g L B other) cmds ops) (hok : Carried (AixOk b alloc) cmds)
    (w : W Handle K (Option Bytes) (DevErr Sense) (Aix.AixWorld State)) (s : State) (hw : AixIdle w.st w.os s) :
    ∃ w' as, RunAll (machine (T := T) (Aix.aixBlocking (lp64 false) getSense b (Aix.scDevice (cached g))).plat (Aix.prepare (lp64 false) alloc t))
        cmds w as w' ∧ Each Shows as (runOps g ops s).1 ∧ AixIdle w'.st w'.os (runOps g ops s).2 := by
  obtain ⟨w', h1, h2⟩ := C51_aix (K := K) (T := T) getSense b (cached g) alloc t ht
    (fun m q h => cached_parses g m q (by intro h0; rw [h0] at h; simp at h)) cmds hok w s hw
  obtain ⟨e1, e2⟩ := askAll_cached L B other hg outcome_delivers hask s
  exact ⟨w', _, h1, e1, by rw [← e2]; exact h2⟩

/-- **C82, sessions on Windows**, 32 and 64 bit. -/
theorem C82_windows (b : Bool) (g : Geometry) (hg : Valid g) (alloc : Nat → Alloc)
    (cmds : List (Command Req (Option Bytes) Result)) (ops : List Op) (hask : Each (Asks g L B other) cmds ops) (hok : Carried (WindowsOk b alloc) cmds)
    (w : W Win32.Spt K (Option Bytes) (DevErr Sense) (Win32.WinWorld State)) (s : State) (hw : WindowsIdle w.st w.os s) :
    ∃ w' as, RunAll (machine (T := T) (Win32.winPlat (Win32.W b) getSense (Win32.sptDevice b (cached g))) (Win32.prepare (Win32.W b) alloc))
        cmds w as w' ∧ Each Shows as (runOps g ops s).1 ∧ WindowsIdle w'.st w'.os (runOps g ops s).2 := by
  obtain ⟨w', h1, h2⟩ := C51_windows (K := K) (T := T) b getSense (cached g) alloc
    (fun m q h => cached_parses g m q (by rw [h]; decide)) cmds hok w s hw
  obtain ⟨e1, e2⟩ := askAll_cached L B other hg winOutcome_delivers hask s
  exact ⟨w', _, h1, e1, by rw [← e2]; exact h2⟩

/-! ## What survives -/

/-- Bytes of `x` are those of `bs` from address `a` on. -/
def Holds (x : Contents) (a : Nat) (bs : Bytes) : Prop := readAt x a bs.length = bs

theorem holds_iff (x : Contents) (a : Nat) (bs : Bytes) : Holds x a bs ↔ ∀ i (h : i < bs.length), x (a + i) = bs[i] := by
  constructor
  · intro h i hi
    have : (readAt x a bs.length)[i]'(by simpa [readAt] using hi) = bs[i] := by simp only [show readAt x a bs.length = bs from h]
    simpa [readAt] using this
  · intro h
    apply List.ext_getElem
    · simp [readAt]
    · intro i h1 h2
      simpa [readAt] using h i h2

theorem holds_merge {x y z : Contents} {a : Nat} {bs : Bytes} (hx : Holds x a bs) (hy : Holds y a bs) (hz : ∀ i, z i = x i ∨ z i = y i) : Holds z a bs := by
  rw [holds_iff] at *
  intro i hi
  rcases hz (a + i) with h | h
  · rw [h, hx i hi]
  · rw [h, hy i hi]

theorem holds_settle (g : Geometry) {medium seen : Contents} {a : Nat} {bs : Bytes} (hm : Holds medium a bs) (hs : Holds seen a bs) (blocks : Nat × Nat) :
    Holds (settle g medium seen blocks) a bs := by
  refine holds_merge hs hm fun i => ?_
  unfold settle
  split
  · exact .inl rfl
  · exact .inr rfl

/-- The medium and what is seen both hold the bytes. -/
def Safe (s : State) (a : Nat) (bs : Bytes) : Prop := Holds s.medium a bs ∧ Holds s.seen a bs

theorem safe_next {s : State} {a : Nat} {bs : Bytes} (h : Safe s a bs) : Safe s.next a bs := by
  have : ∀ (es : List Event) (s : State), Safe s a bs → Safe (es.foldl Event.happen s) a bs := by
    intro es
    induction es with
    | nil => exact fun s h => h
    | cons e es ih =>
      intro s h
      refine ih _ ?_
      cases e with
      | destage which =>
        refine ⟨holds_merge h.2 h.1 fun i => ?_, h.2⟩
        simp only [Event.happen]
        split
        · exact .inl rfl
        · exact .inr rfl
      | powerLoss => exact ⟨h.1, h.1⟩
  exact this _ _ h

/-- An operation that spares the blocks leaves them safe. -/
theorem safe_run {g : Geometry} {s : State} {lba n : Nat} {bs : Bytes} (hn : bs.length = n * g.size) (o : Op) (hw : o.base.Whole g)
    (hsp : o.base.Spares g lba n) (h : Safe s (lba * g.size) bs) : Safe (o.run g s).2 (lba * g.size) bs := by
  have h' := safe_next h
  unfold Op.run
  generalize s.next = s at h' ⊢
  have hs : Holds (o.base.run g s.seen).2 (lba * g.size) bs := by
    unfold Holds
    rw [hn, run_spared g s.seen lba n _ hw hsp, ← hn]
    exact h'.2
  by_cases ha : s.attention = true
  · simp only [ha, if_true]; exact h'
  · by_cases hr : o.opts.protect ≠ 0 ∨ o.opts.rel ≠ 0 ∨ o.opts.naca ≠ 0
    · simp only [ha, if_pos hr]; exact h'
    · simp only [ha, if_neg hr]
      refine ⟨?_, hs⟩
      by_cases hf : o.opts.fua = 1 ∧ ¬ Reply.isFailed (o.base.run g s.seen).1 = true
      · simp only [if_pos hf]; exact holds_settle g h'.1 hs _
      · simp only [if_neg hf]; exact h'.1

theorem safe_runOps {g : Geometry} {lba n : Nat} {bs : Bytes} (hn : bs.length = n * g.size) (ops : List Op) (hsp : ∀ o ∈ ops, o.base.Whole g ∧ o.base.Spares g lba n)
    (s : State) (h : Safe s (lba * g.size) bs) : Safe (runOps g ops s).2 (lba * g.size) bs := by
  induction ops generalizing s with
  | nil => exact h
  | cons o os ih =>
    have ho := hsp o List.mem_cons_self
    exact ih (fun o ho => hsp o (List.mem_cons_of_mem _ ho)) _ (safe_run hn o ho.1 ho.2 h)

/-- What an operation on the disk with its cache can come to. -/
theorem run_cases (g : Geometry) (s : State) (o : Op) :
    (o.run g s).1 = .failed 6 0x29 0 ∨ ((o.run g s).1 = .failed 5 0x24 0 ∧ (o.opts.protect ≠ 0 ∨ o.opts.rel ≠ 0 ∨ o.opts.naca ≠ 0)) ∨
      (s.next.attention = false ∧ (o.run g s).1 = (o.base.run g s.next.seen).1 ∧ (o.run g s).2.seen = (o.base.run g s.next.seen).2 ∧
        (o.run g s).2.attention = false ∧
        (o.opts.fua = 1 → Reply.isFailed (o.run g s).1 = false → (o.run g s).2.medium = settle g s.next.medium (o.base.run g s.next.seen).2 (o.base.span g))) := by
  unfold Op.run
  generalize s.next = s
  by_cases ha : s.attention = true
  · simp [ha]
  · by_cases hr : o.opts.protect ≠ 0 ∨ o.opts.rel ≠ 0 ∨ o.opts.naca ≠ 0
    · right; left
      simp only [ha, if_pos hr]
      exact ⟨rfl, hr⟩
    · right; right
      simp only [ha, if_neg hr]
      refine ⟨by simp, rfl, rfl, by simp, fun h1 h2 => ?_⟩
      simp only [Bool.false_eq_true, if_false] at h2 ⊢
      rw [if_pos ⟨h1, by rw [h2]; decide⟩]

theorem holds_settled (g : Geometry) (medium seen : Contents) (lba n : Nat) (bs : Bytes) (hn : bs.length = n * g.size) (hs : Holds seen (lba * g.size) bs) :
    Holds (settle g medium seen (lba, n)) (lba * g.size) bs := by
  rw [holds_iff] at *
  intro i hi
  unfold settle
  rw [if_pos ⟨Nat.le_add_right _ _, by show _ < (lba + n) * g.size; rw [Nat.add_mul]; omega⟩]
  exact hs i hi

/-- What the caller is told of an operation is so. -/
theorem tells_seen {g : Geometry} (hs : 0 < g.size) {lba n : Nat} {data : Bytes} (hn : data.length = n * g.size) {o : Op} {r : Reply}
    (ht : Tells g lba n data o r) (m : Contents) (h : (o.base.run g m).1 = r) :
    Holds (o.base.run g m).2 (lba * g.size) data ∧ lba + n ≤ g.blocks ∧ o.base.span g = (lba, n) ∧ Reply.isFailed r = false := by
  have hw : (Disk.Op.run g m (.write lba data)).1 = .done →
      Holds (Disk.Op.run g m (.write lba data)).2 (lba * g.size) data ∧ lba + n ≤ g.blocks ∧ (lba, data.length / g.size) = (lba, n) := by
    have hk : data.length / g.size = n := by rw [hn, Nat.mul_div_cancel _ hs]
    intro h
    simp only [Disk.Op.run, hk] at h ⊢
    by_cases hin : lba + n ≤ g.blocks
    · simp only [if_pos hin]
      exact ⟨readAt_writeAt m (lba * g.size) data, hin, trivial⟩
    · simp only [if_neg hin] at h
      cases h
  have he : ∀ old : Bytes, old.length = n * g.size → (Disk.Op.run g m (.exchange lba old data)).1 = .done →
      Holds (Disk.Op.run g m (.exchange lba old data)).2 (lba * g.size) data ∧ lba + n ≤ g.blocks ∧ (lba, old.length / g.size) = (lba, n) := by
    intro old ho h
    have hk : old.length / g.size = n := by rw [ho, Nat.mul_div_cancel _ hs]
    simp only [Disk.Op.run, hk] at h ⊢
    by_cases hin : lba + n ≤ g.blocks
    · simp only [if_pos hin] at h ⊢
      by_cases he : readAt m (lba * g.size) old.length = old
      · simp only [if_pos he]
        exact ⟨readAt_writeAt m (lba * g.size) data, hin, trivial⟩
      · simp only [if_neg he] at h
        cases h
    · simp only [if_neg hin] at h
      cases h
  have hr : (Disk.Op.run g m (.read lba n)).1 = .data data → Holds (Disk.Op.run g m (.read lba n)).2 (lba * g.size) data ∧ lba + n ≤ g.blocks := by
    intro h
    simp only [Disk.Op.run] at h ⊢
    by_cases hin : lba + n ≤ g.blocks
    · simp only [if_pos hin] at h ⊢
      refine ⟨?_, hin⟩
      rw [Holds, hn]
      injection h
    · simp only [if_neg hin] at h
      cases h
  cases ht with
  | write => obtain ⟨h1, h2, h3⟩ := hw h; exact ⟨h1, h2, h3, rfl⟩
  | plainWrite => obtain ⟨h1, h2, h3⟩ := hw h; exact ⟨h1, h2, h3, rfl⟩
  | exchange ho => obtain ⟨h1, h2, h3⟩ := he _ ho h; exact ⟨h1, h2, h3, rfl⟩
  | plainExchange ho => obtain ⟨h1, h2, h3⟩ := he _ ho h; exact ⟨h1, h2, h3, rfl⟩
  | read => obtain ⟨h1, h2⟩ := hr h; exact ⟨h1, h2, rfl, rfl⟩
  | plainRead => obtain ⟨h1, h2⟩ := hr h; exact ⟨h1, h2, rfl, rfl⟩

theorem tells_notFailed {g : Geometry} {lba n : Nat} {data : Bytes} {o : Op} {r : Reply} (ht : Tells g lba n data o r) (k a q : Nat) : r ≠ .failed k a q := by
  cases ht <;> simp

/-- With FUA it is also so on the medium. -/
theorem tells_safe {g : Geometry} (hs : 0 < g.size) {lba n : Nat} {data : Bytes} (hn : data.length = n * g.size) {o : Op} {r : Reply}
    (ht : Tells g lba n data o r) (hf : o.opts.fua = 1) (s : State) (h : (o.run g s).1 = r) :
    Safe (o.run g s).2 (lba * g.size) data ∧ lba + n ≤ g.blocks := by
  rcases run_cases g s o with h' | h' | ⟨-, h1, h2, -, h4⟩
  · exact absurd (h.symm.trans h') (tells_notFailed ht _ _ _)
  · exact absurd (h.symm.trans h'.1) (tells_notFailed ht _ _ _)
  · obtain ⟨e1, e2, e3, e4⟩ := tells_seen hs hn ht s.next.seen (h1.symm.trans h)
    have h4 := h4 hf (by rw [h, e4])
    rw [e3] at h4
    exact ⟨⟨by rw [h4]; exact holds_settled g _ _ _ _ _ hn e1, by rw [h2]; exact e1⟩, e2⟩

/-- What the caller of a read of safe blocks is told. -/
theorem read_safe {g : Geometry} {s : State} {rd : Op} {lba n : Nat} (hrd : rd.base = .read lba n) {data : Bytes} (hn : data.length = n * g.size)
    (hin : lba + n ≤ g.blocks) (h : Safe s (lba * g.size) data) :
    (rd.run g s).1 = .data data ∨ (rd.run g s).1 = .failed 6 0x29 0 ∨
      ((rd.run g s).1 = .failed 5 0x24 0 ∧ (rd.opts.protect ≠ 0 ∨ rd.opts.rel ≠ 0 ∨ rd.opts.naca ≠ 0)) := by
  rcases run_cases g s rd with h' | h' | ⟨-, h1, -⟩
  · exact .inr (.inl h')
  · exact .inr (.inr h')
  · left
    rw [h1, hrd]
    simp only [Disk.Op.run, if_pos hin]
    rw [← hn, show readAt _ _ _ = _ from (safe_next h).2]

/-! ## What is not lost without being told -/

theorem happen_attention (es : List Event) (s : State) (h : (es.foldl Event.happen s).attention = false) :
    (es.foldl Event.happen s).seen = s.seen ∧ s.attention = false := by
  induction es generalizing s with
  | nil => exact ⟨rfl, h⟩
  | cons e es ih =>
    obtain ⟨h1, h2⟩ := ih _ h
    cases e with
    | destage which => exact ⟨h1, h2⟩
    | powerLoss => cases h2

theorem next_seen (s : State) (h : s.next.attention = false) : s.next.seen = s.seen := (happen_attention _ s h).1

/-- An operation that spares the blocks leaves them as they are seen, or its caller is told of a loss of power. -/
theorem seen_run {g : Geometry} {s : State} {lba n : Nat} {bs : Bytes} (hn : bs.length = n * g.size) (o : Op) (hw : o.base.Whole g)
    (hsp : o.base.Spares g lba n) (h : Holds s.seen (lba * g.size) bs) (hr : (o.run g s).1 ≠ .failed 6 0x29 0) :
    Holds (o.run g s).2.seen (lba * g.size) bs := by
  have hnx := next_seen s
  unfold Op.run at hr ⊢
  generalize s.next = s' at hnx hr ⊢
  by_cases ha : s'.attention = true
  · simp only [ha, if_true] at hr
    exact absurd rfl hr
  · have hx := hnx (by simpa using ha)
    by_cases hr : o.opts.protect ≠ 0 ∨ o.opts.rel ≠ 0 ∨ o.opts.naca ≠ 0
    · simp only [ha, if_pos hr]
      show Holds s'.seen _ _
      rw [hx]; exact h
    · simp only [ha, if_neg hr]
      show Holds (o.base.run g s'.seen).2 _ _
      rw [Holds, hn, run_spared g s'.seen lba n _ hw hsp, ← hn, hx]
      exact h

theorem seen_runOps {g : Geometry} {lba n : Nat} {bs : Bytes} (hn : bs.length = n * g.size) (ops : List Op) (hsp : ∀ o ∈ ops, o.base.Whole g ∧ o.base.Spares g lba n)
    (s : State) (h : Holds s.seen (lba * g.size) bs) (hr : Reply.failed 6 0x29 0 ∉ (runOps g ops s).1) :
    Holds (runOps g ops s).2.seen (lba * g.size) bs := by
  induction ops generalizing s with
  | nil => exact h
  | cons o os ih =>
    have ho := hsp o List.mem_cons_self
    simp only [runOps, List.mem_cons, not_or] at hr
    exact ih (fun o ho => hsp o (List.mem_cons_of_mem _ ho)) _ (seen_run hn o ho.1 ho.2 h (fun e => hr.1 e.symm)) hr.2

theorem read_seen {g : Geometry} {s : State} {rd : Op} {lba n : Nat} (hrd : rd.base = .read lba n) {data : Bytes} (hn : data.length = n * g.size)
    (hin : lba + n ≤ g.blocks) (h : Holds s.seen (lba * g.size) data) :
    (rd.run g s).1 = .data data ∨ (rd.run g s).1 = .failed 6 0x29 0 ∨
      ((rd.run g s).1 = .failed 5 0x24 0 ∧ (rd.opts.protect ≠ 0 ∨ rd.opts.rel ≠ 0 ∨ rd.opts.naca ≠ 0)) := by
  rcases run_cases g s rd with h' | h' | ⟨h0, h1, -⟩
  · exact .inr (.inl h')
  · exact .inr (.inr h')
  · left
    rw [h1, hrd]
    simp only [Disk.Op.run, if_pos hin]
    rw [← hn, next_seen s h0, show readAt _ _ _ = _ from h]

/-! ## For the callers -/

/-- What a caller gets: a value, or an exception. -/
abbrev Got := Except (Exn (DevErr Sense)) (Option (Val (Option Bytes) (DevErr Sense) Result))

/-- An exception with this sense data. -/
def Got.Raised (a : Got) (key asc ascq : Nat) : Prop := ∃ raw s, a = .error (.dev (.checkCondition raw (some s))) ∧ Says s key asc ascq

theorem asks_whole {g : Geometry} (hs : 0 < g.size) {c : Command Req (Option Bytes) Result} {o : Op} (h : Asks g L B other c o) : o.base.Whole g := by
  have key : ∀ d n : Nat, d = n * g.size → d = d / g.size * g.size := by
    intro d n h; rw [h, Nat.mul_div_cancel _ hs]
  cases h with
  | plain h => exact Commands.asks_whole hs h
  | read10 => trivial
  | read12 => trivial
  | read16 => trivial
  | write10 _ _ _ _ _ _ _ h => exact key _ _ h
  | write12 _ _ _ _ _ _ _ h => exact key _ _ h
  | write16 _ _ _ _ _ _ _ _ h => exact key _ _ h
  | exchange _ _ _ _ _ _ h1 h2 => exact ⟨key _ _ h1, h2.trans h1.symm⟩

theorem each_asks_whole {g : Geometry} (hs : 0 < g.size) {cmds : List (Command Req (Option Bytes) Result)} {ops : List Op}
    (h : Each (Asks g L B other) cmds ops) : ∀ o ∈ ops, o.base.Whole g := by
  induction h with
  | nil => simp
  | cons h _ ih =>
    intro o ho
    rcases List.mem_cons.1 ho with rfl | ho
    · exact asks_whole L B other hs h
    · exact ih o ho

/-- The caller's view of a reply determines it, for the operations that tell what blocks hold. -/
theorem shows_tells {g : Geometry} {lba n : Nat} {data : Bytes} (hne : data ≠ []) {o : Op} {r : Reply} (ht : Tells g lba n data o r) (s : State) {a : Got}
    (h1 : Shows a (o.run g s).1) (h2 : Shows a r) : (o.run g s).1 = r := by
  have hw : ∀ (m : Contents) (lba : Nat) (d : Bytes), (Disk.Op.run g m (.write lba d)).1 = .done ∨ ∃ k q, (Disk.Op.run g m (.write lba d)).1 = .failed k q 0 := by
    intro m lba d
    simp only [Disk.Op.run]
    split
    · exact .inl rfl
    · exact .inr ⟨_, _, rfl⟩
  have he : ∀ (m : Contents) (lba : Nat) (d e : Bytes),
      (Disk.Op.run g m (.exchange lba d e)).1 = .done ∨ ∃ k q, (Disk.Op.run g m (.exchange lba d e)).1 = .failed k q 0 := by
    intro m lba d e
    simp only [Disk.Op.run]
    split
    · split
      · exact .inl rfl
      · exact .inr ⟨_, _, rfl⟩
    · exact .inr ⟨_, _, rfl⟩
  have hr : ∀ (m : Contents) (lba n : Nat),
      (∃ d, (Disk.Op.run g m (.read lba n)).1 = .data d) ∨ ∃ k q, (Disk.Op.run g m (.read lba n)).1 = .failed k q 0 := by
    intro m lba n
    simp only [Disk.Op.run]
    split
    · exact .inl ⟨_, rfl⟩
    · exact .inr ⟨_, _, rfl⟩
  have hfail : ∀ k q : Nat, ¬ Shows a (.failed k q 0) := by
    rintro k q ⟨raw, sn, e, -⟩
    cases ht <;> simp only [Shows, e] at h2 <;> cases h2
  have hd : Shows a (.data data) → ∀ d, Shows a (.data d) → Reply.data d = .data data := by
    intro e d e'
    simp only [Shows] at e e'
    rw [e, if_neg hne] at e'
    by_cases hz : d = []
    · rw [if_pos hz] at e'; cases e'
    · rw [if_neg hz] at e'; cases e'; rfl
  rcases run_cases g s o with h' | h' | ⟨-, h', -⟩
  · rw [h'] at h1; exact absurd h1 (hfail _ _)
  · rw [h'.1] at h1; exact absurd h1 (hfail _ _)
  · rw [h'] at h1 ⊢
    cases ht with
    | write => rcases hw s.next.seen lba data with e | ⟨k, q, e⟩; exact e; exact absurd (e ▸ h1) (hfail k q)
    | plainWrite => rcases hw s.next.seen lba data with e | ⟨k, q, e⟩; exact e; exact absurd (e ▸ h1) (hfail k q)
    | exchange => rcases he s.next.seen lba _ data with e | ⟨k, q, e⟩; exact e; exact absurd (e ▸ h1) (hfail k q)
    | plainExchange => rcases he s.next.seen lba _ data with e | ⟨k, q, e⟩; exact e; exact absurd (e ▸ h1) (hfail k q)
    | read =>
      rcases hr s.next.seen lba n with ⟨d, e⟩ | ⟨k, q, e⟩
      · exact e.trans (hd h2 d (e ▸ h1))
      · exact absurd (e ▸ h1) (hfail k q)
    | plainRead =>
      rcases hr s.next.seen lba n with ⟨d, e⟩ | ⟨k, q, e⟩
      · exact e.trans (hd h2 d (e ▸ h1))
      · exact absurd (e ▸ h1) (hfail k q)

theorem runOps_append (g : Geometry) (as bs : List Op) (s : State) :
    runOps g (as ++ bs) s = ((runOps g as s).1 ++ (runOps g bs (runOps g as s).2).1, (runOps g bs (runOps g as s).2).2) := by
  induction as generalizing s with
  | nil => rfl
  | cons a as ih => simp [runOps, ih]

/-- What the caller of the last read can get. -/
def Final (data : Bytes) (f : Opts) (z : Got) : Prop :=
  z = .ok (some (.obj (.raw (some data)))) ∨ z.Raised 6 0x29 0 ∨ (z.Raised 5 0x24 0 ∧ (f.protect ≠ 0 ∨ f.rel ≠ 0 ∨ f.naca ≠ 0))

theorem final_of {data : Bytes} (hne : data ≠ []) {f : Opts} {r : Reply} {z : Got} (hz : Shows z r)
    (h : r = .data data ∨ r = .failed 6 0x29 0 ∨ (r = .failed 5 0x24 0 ∧ (f.protect ≠ 0 ∨ f.rel ≠ 0 ∨ f.naca ≠ 0))) : Final data f z := by
  rcases h with rfl | rfl | ⟨rfl, h⟩
  · left
    simp only [Shows, if_neg hne] at hz
    exact hz
  · exact .inr (.inl hz)
  · exact .inr (.inr ⟨hz, h⟩)

theorem data_ne {g : Geometry} (hs : 0 < g.size) {n : Nat} {data : Bytes} (hd : data.length = n * g.size) (hn : 0 < n) : data ≠ [] := by
  rintro rfl
  have := Nat.mul_pos hn hs
  simp at hd
  omega

theorem each_cons_inv {α β : Type} {R : α → β → Prop} {as : List α} {b : β} {bs : List β} (h : Each R as (b :: bs)) :
    ∃ a as', as = a :: as' ∧ R a b ∧ Each R as' bs := by
  cases h with
  | cons h1 h2 => exact ⟨_, _, rfl, h1, h2⟩

theorem each_append_inv {α β : Type} {R : α → β → Prop} {as : List α} {bs cs : List β} (h : Each R as (bs ++ cs)) :
    ∃ as' as'', as = as' ++ as'' ∧ Each R as' bs ∧ Each R as'' cs := by
  induction bs generalizing as with
  | nil => exact ⟨[], as, rfl, .nil, h⟩
  | cons b bs ih =>
    obtain ⟨a, as', rfl, h1, h2⟩ := each_cons_inv h
    obtain ⟨x, y, rfl, h3, h4⟩ := ih h2
    exact ⟨a :: x, y, rfl, .cons h1 h3, h4⟩

/-- The answers of a session that begins with one command and ends with a read. -/
theorem split_answers {g : Geometry} {o : Op} {ops : List Op} {rd : Op} {s : State} {as : List Got}
    (h : Each Shows as (runOps g (o :: ops ++ [rd]) s).1) :
    ∃ a mid z, as = a :: mid ++ [z] ∧ Shows a (o.run g s).1 ∧ Each Shows mid (runOps g ops (o.run g s).2).1 ∧
      Shows z (rd.run g (runOps g ops (o.run g s).2).2).1 := by
  rw [runOps_append] at h
  obtain ⟨x, y, rfl, h1, h2⟩ := each_append_inv h
  obtain ⟨a, mid, rfl, h3, h4⟩ := each_cons_inv h1
  obtain ⟨z, y', rfl, h5, h6⟩ := each_cons_inv h2
  cases h6
  exact ⟨a, mid, z, rfl, h3, h4, h5⟩

/-- **C82, what is told with FUA survives.** In any state of the disk, with any loss of power and any destaging to come: an operation with FUA
(a write or matching comparison that was acknowledged, a read that returned data), any commands that leave those blocks alone, then a read of those
blocks. Its caller gets the data, or is told of a loss of power (6/29/00) by that very command, or asked for an option that the disk refuses. -/
theorem C82_survives (g : Geometry) (hg : Valid g) (o : Op) (r : Reply) (cmds : List (Command Req (Option Bytes) Result)) (ops : List Op) (rd : Op)
    (lba n : Nat) (hrd : rd.base = .read lba n) (data : Bytes) (hd : data.length = n * g.size) (hn : 0 < n) (ht : Tells g lba n data o r) (hf : o.opts.fua = 1)
    (hask : Each (Asks g L B other) cmds ops) (hsp : ∀ o ∈ ops, o.base.Spares g lba n) (s : State) (as : List Got)
    (h : Each Shows as (runOps g (o :: ops ++ [rd]) s).1) (hack : ∃ a, as.head? = some a ∧ Shows a r) :
    ∃ z, as.getLast? = some z ∧ Final data rd.opts z := by
  have hs := hg.size.1
  have hne := data_ne hs hd hn
  obtain ⟨a, mid, z, rfl, h1, -, h3⟩ := split_answers h
  obtain ⟨a', ha', hr⟩ := hack
  cases ha'
  obtain ⟨hsafe, hin⟩ := tells_safe hs hd ht hf s (shows_tells hne ht s h1 hr)
  refine ⟨z, by rw [List.getLast?_append]; rfl, final_of hne h3 ?_⟩
  exact read_safe hrd hd hin (safe_runOps hd ops (fun o ho => ⟨each_asks_whole L B other hs hask o ho, hsp o ho⟩) _ hsafe)

/-- **C82, without FUA nothing is lost silently.** The same for operations with or without FUA, if no caller in between was told of a loss of power. -/
theorem C82_told (g : Geometry) (hg : Valid g) (o : Op) (r : Reply) (cmds : List (Command Req (Option Bytes) Result)) (ops : List Op) (rd : Op)
    (lba n : Nat) (hrd : rd.base = .read lba n) (data : Bytes) (hd : data.length = n * g.size) (hn : 0 < n) (ht : Tells g lba n data o r)
    (hask : Each (Asks g L B other) cmds ops) (hsp : ∀ o ∈ ops, o.base.Spares g lba n) (s : State) (a z : Got) (mid : List Got)
    (h : Each Shows (a :: mid ++ [z]) (runOps g (o :: ops ++ [rd]) s).1) (hack : Shows a r) (hmid : ∀ b ∈ mid, ¬ Got.Raised b 6 0x29 0) :
    Final data rd.opts z := by
  have hs := hg.size.1
  have hne := data_ne hs hd hn
  obtain ⟨a', mid', z', e, h1, h2, h3⟩ := split_answers h
  obtain ⟨e, e'⟩ := List.append_inj' e rfl
  cases e
  cases e'
  have hrun := shows_tells hne ht s h1 hack
  have hseen : Holds (o.run g s).2.seen (lba * g.size) data ∧ lba + n ≤ g.blocks := by
    rcases run_cases g s o with h' | h' | ⟨-, h1, h2, -⟩
    · exact absurd (hrun.symm.trans h') (tells_notFailed ht _ _ _)
    · exact absurd (hrun.symm.trans h'.1) (tells_notFailed ht _ _ _)
    · obtain ⟨e1, e2, -⟩ := tells_seen hs hd ht s.next.seen (h1.symm.trans hrun)
      exact ⟨by rw [h2]; exact e1, e2⟩
  have hno : ∀ (xs : List Got) (rs : List Reply), Each Shows xs rs → (∀ b ∈ xs, ¬ Got.Raised b 6 0x29 0) → Reply.failed 6 0x29 0 ∉ rs := by
    intro xs rs he
    induction he with
    | nil => simp
    | cons h _ ih =>
      intro hall hmem
      rcases List.mem_cons.1 hmem with rfl | hmem
      · exact hall _ List.mem_cons_self h
      · exact ih (fun b hb => hall b (List.mem_cons_of_mem _ hb)) hmem
  refine final_of hne h3 ?_
  exact read_seen hrd hd hseen.2 (seen_runOps hd ops (fun o ho => ⟨each_asks_whole L B other hs hask o ho, hsp o ho⟩) _ hseen.1 (hno _ _ h2 hmid))

/-! ## From the executer to the disk -/

section platforms

variable (g : Geometry) (hg : Valid g) (fst : Command Req (Option Bytes) Result) (o : Op) (r : Reply) (cmds : List (Command Req (Option Bytes) Result))
  (ops : List Op) (last : Command Req (Option Bytes) Result) (rd : Op) (lba n : Nat) (data : Bytes)

/-- **C82 on Linux**, from the executer to the disk. -/
theorem C82_survives_linux (hg : Valid g) (l : Bool) (alloc : Nat → Alloc) (t : Int) (ht : 0 ≤ t ∧ t < 2 ^ 32) (hd : data.length = n * g.size) (hn : 0 < n)
    (hfst : Asks g L B other fst o) (htell : Tells g lba n data o r) (hf : o.opts.fua = 1) (hask : Each (Asks g L B other) cmds ops)
    (hsp : ∀ o ∈ ops, o.base.Spares g lba n) (hlast : Asks g L B other last rd) (hrd : rd.base = .read lba n)
    (hok : Carried (LinuxOk alloc) (fst :: cmds ++ [last]))
    (w : W Handle K (Option Bytes) (DevErr Sense) (World (State × Option Bytes))) (s : State) (hw : LinuxIdle w.st w.os s) :
    ∃ w' as, RunAll (machine (T := T) (Linux.sgBlocking (lp64 l) getSense (Linux.sgDevice l (cached g))).plat (Linux.prepare (lp64 l) alloc t))
        (fst :: cmds ++ [last]) w as w' ∧
      ((∃ a, as.head? = some a ∧ Shows a r) → ∃ z, as.getLast? = some z ∧ Final data rd.opts z) := by
  obtain ⟨w', as, h1, h2, -⟩ := C82_linux (K := K) (T := T) L B other l g hg alloc t ht _ (o :: ops ++ [rd])
    (each_append (.cons hfst hask) (.cons hlast .nil)) hok w s hw
  exact ⟨w', as, h1, C82_survives L B other g hg o r cmds ops rd lba n hrd data hd hn htell hf hask hsp s as h2⟩

/-- **C82 on Solaris**, from the executer to the disk. -/
theorem C82_survives_solaris (hg : Valid g) (l : Bool) (alloc : Nat → Alloc) (t : Int) (ht : 0 ≤ t ∧ t < 2 ^ 15) (hd : data.length = n * g.size) (hn : 0 < n)
    (hfst : Asks g L B other fst o) (htell : Tells g lba n data o r) (hf : o.opts.fua = 1) (hask : Each (Asks g L B other) cmds ops)
    (hsp : ∀ o ∈ ops, o.base.Spares g lba n) (hlast : Asks g L B other last rd) (hrd : rd.base = .read lba n)
    (hok : Carried (SolarisOk alloc) (fst :: cmds ++ [last]))
    (w : W Handle K (Option Bytes) (DevErr Sense) (Solaris.SolWorld State)) (s : State) (hw : SolarisIdle w.st w.os s) :
    ∃ w' as, RunAll (machine (T := T) (Solaris.solBlocking (lp64 l) getSense (Solaris.uscsiDevice l (cached g))).plat (Solaris.prepare (lp64 l) alloc t))
        (fst :: cmds ++ [last]) w as w' ∧
      ((∃ a, as.head? = some a ∧ Shows a r) → ∃ z, as.getLast? = some z ∧ Final data rd.opts z) := by
  obtain ⟨w', as, h1, h2, -⟩ := C82_solaris (K := K) (T := T) L B other l g hg alloc t ht _ (o :: ops ++ [rd])
    (each_append (.cons hfst hask) (.cons hlast .nil)) hok w s hw
  exact ⟨w', as, h1, C82_survives L B other g hg o r cmds ops rd lba n hrd data hd hn htell hf hask hsp s as h2⟩

/-- **C82 on AIX**, from the executer to the disk. -/
theorem C82_survives_aix (hg : Valid g) (b : Aix.Binding) (alloc : Nat → Alloc) (t : Int) (ht : 0 ≤ t ∧ t < 2 ^ 32) (hd : data.length = n * g.size) (hn : 0 < n)
    (hfst : Asks g L B other fst o) (htell : Tells g lba n data o r) (hf : o.opts.fua = 1) (hask : Each (Asks g L B other) cmds ops)
    (hsp : ∀ o ∈ ops, o.base.Spares g lba n) (hlast : Asks g L B other last rd) (hrd : rd.base = .read lba n)
    (hok : Carried (AixOk b alloc) (fst :: cmds ++ [last]))
    (w : W Handle K (Option Bytes) (DevErr Sense) (Aix.AixWorld State)) (s : State) (hw : AixIdle w.st w.os s) :
    ∃ w' as, RunAll (machine (T := T) (Aix.aixBlocking (lp64 false) getSense b (Aix.scDevice (cached g))).plat (Aix.prepare (lp64 false) alloc t))
        (fst :: cmds ++ [last]) w as w' ∧
      ((∃ a, as.head? = some a ∧ Shows a r) → ∃ z, as.getLast? = some z ∧ Final data rd.opts z) := by
  obtain ⟨w', as, h1, h2, -⟩ := C82_aix (K := K) (T := T) L B other b g hg alloc t ht _ (o :: ops ++ [rd])
    (each_append (.cons hfst hask) (.cons hlast .nil)) hok w s hw
  exact ⟨w', as, h1, C82_survives L B other g hg o r cmds ops rd lba n hrd data hd hn htell hf hask hsp s as h2⟩

/-- **C82 on Windows**, from the executer to the disk. -/
theorem C82_survives_windows (hg : Valid g) (b : Bool) (alloc : Nat → Alloc) (hd : data.length = n * g.size) (hn : 0 < n)
    (hfst : Asks g L B other fst o) (htell : Tells g lba n data o r) (hf : o.opts.fua = 1) (hask : Each (Asks g L B other) cmds ops)
    (hsp : ∀ o ∈ ops, o.base.Spares g lba n) (hlast : Asks g L B other last rd) (hrd : rd.base = .read lba n)
    (hok : Carried (WindowsOk b alloc) (fst :: cmds ++ [last]))
    (w : W Win32.Spt K (Option Bytes) (DevErr Sense) (Win32.WinWorld State)) (s : State) (hw : WindowsIdle w.st w.os s) :
    ∃ w' as, RunAll (machine (T := T) (Win32.winPlat (Win32.W b) getSense (Win32.sptDevice b (cached g))) (Win32.prepare (Win32.W b) alloc))
        (fst :: cmds ++ [last]) w as w' ∧
      ((∃ a, as.head? = some a ∧ Shows a r) → ∃ z, as.getLast? = some z ∧ Final data rd.opts z) := by
  obtain ⟨w', as, h1, h2, -⟩ := C82_windows (K := K) (T := T) L B other b g hg alloc _ (o :: ops ++ [rd])
    (each_append (.cons hfst hask) (.cons hlast .nil)) hok w s hw
  exact ⟨w', as, h1, C82_survives L B other g hg o r cmds ops rd lba n hrd data hd hn htell hf hask hsp s as h2⟩

end platforms

/-! ## What does not survive -/

/-- A disk holding `m` that loses power after the next command. -/
def doomed (m : Contents) : State := { medium := m, seen := m, attention := false, coming := [[], [.powerLoss]] }

theorem lost (g : Geometry) (m : Contents) (lba : Nat) (data : Bytes) (hin : lba + data.length / g.size ≤ g.blocks)
    (o : Op) (ho : o.base = .write lba data) (hf : o.opts.fua ≠ 1) (hr : ¬ (o.opts.protect ≠ 0 ∨ o.opts.rel ≠ 0 ∨ o.opts.naca ≠ 0)) :
    (runOps g [o, .plain .ready, .plain (.read lba (data.length / g.size))] (doomed m)).1 =
      [.done, .failed 6 0x29 0, .data (readAt m (lba * g.size) (data.length / g.size * g.size))] := by
  have h1 : o.run g (doomed m) =
      (.done, { medium := m, seen := writeAt m (lba * g.size) data, attention := false, coming := [[.powerLoss]] }) := by
    have hx : (doomed m).next = { medium := m, seen := m, attention := false, coming := [[.powerLoss]] } := rfl
    unfold Op.run
    rw [hx]
    simp only [Bool.false_eq_true, if_false, if_neg hr, ho, Disk.Op.run, if_pos hin, hf, false_and]
  simp only [runOps, h1]
  simp [Op.run, State.next, Event.happen, Op.opts, Op.base, Disk.Op.run, hin]

/-- **C82 fails for a write as it is constructed**: the write is acknowledged and its data is gone. On Linux; what the disk held before the write
is read back after a loss of power. -/
theorem C82_default_false (g : Geometry) (hg : Valid g) (l : Bool) (alloc : Nat → Alloc) (t : Int) (ht : 0 ≤ t ∧ t < 2 ^ 32) (wr rd : Cmd)
    (lba n : Nat) (data : Bytes) (hd : data.length = n * g.size) (hin : lba + n ≤ g.blocks) (hwr : Commands.Asks g wr (.write lba data))
    (hrd : Commands.Asks g rd (.read lba n)) (m : Contents) (hne : readAt m (lba * g.size) data.length ≠ data)
    (hok : Commands.Carried L (LinuxOk alloc) [wr, .testUnitReady, rd])
    (w : W Handle K (Option Bytes) (DevErr Sense) (World (State × Option Bytes))) (hw : LinuxIdle w.st w.os (doomed m)) :
    ∃ w' a old, RunAll (machine (T := T) (Linux.sgBlocking (lp64 l) getSense (Linux.sgDevice l (cached g))).plat (Linux.prepare (lp64 l) alloc t))
        ([wr, .testUnitReady, rd].map (·.command L B other)) w
        [.ok (some (.obj (.raw none))), a, .ok (some (.obj (.raw (some old))))] w' ∧ Got.Raised a 6 0x29 0 ∧ old ≠ data := by
  have hk : data.length / g.size = n := by rw [hd, Nat.mul_div_cancel _ hg.size.1]
  have hask : Each (Asks g L B other) ([wr, .testUnitReady, rd].map (·.command L B other)) [.plain (.write lba data), .plain .ready, .plain (.read lba n)] :=
    .cons (.plain hwr) (.cons (.plain .ready) (.cons (.plain hrd) .nil))
  obtain ⟨w', as, h1, h2, -⟩ := C82_linux (K := K) (T := T) L B other l g hg alloc t ht _ _ hask (carried_map B other hok) w (doomed m) hw
  have hl := lost g m lba data (by rw [hk]; exact hin) (.plain (.write lba data)) rfl (by simp [Op.opts]) (by simp [Op.opts])
  rw [hk] at hl
  rw [hl] at h2
  obtain ⟨a1, _, rfl, s1, h2⟩ := each_cons_inv h2
  obtain ⟨a2, _, rfl, s2, h2⟩ := each_cons_inv h2
  obtain ⟨a3, _, rfl, s3, h2⟩ := each_cons_inv h2
  cases h2
  have h0 : readAt m (lba * g.size) (n * g.size) ≠ [] := by
    intro h0
    have h3 := readAt_length m (lba * g.size) (n * g.size)
    rw [h0] at h3
    apply hne
    rw [hd, h0]
    exact (List.length_eq_zero_iff.1 (hd.trans h3.symm)).symm
  simp only [Shows, if_neg h0] at s1 s3
  subst s1 s3
  exact ⟨w', a2, _, h1, s2, by rw [← hd]; exact hne⟩

/-- Commands without a field for FUA take the assignment in silence and send the block they would send without it. -/
theorem C82_ignored (v : Int) :
    (∀ lba buf bs o, newWrite6 lba buf bs = .ok o → (o.set "fua" v).execute L = Cdb.write6 L lba buf bs) ∧
    (∀ lba buf n bs o, newWriteSame10 lba buf n bs = .ok o → (o.set "fua" v).execute L = Cdb.writeSame10 L lba buf n bs) ∧
    (∀ lba buf n bs o, newWriteSame16 lba buf n bs = .ok o → (o.set "fua" v).execute L = Cdb.writeSame16 L lba buf n bs) ∧
    (∀ ranges o, newUnmap L ranges = .ok o → (o.set "fua" v).execute L = Cdb.unmap L ranges) := by
  have key : ∀ {x : Py Obj} {y : Py Req} {o : Obj}, (x >>= Obj.execute L) = y → x = .ok o → o.execute L = y := by
    intro x y o h1 h2
    rw [← h1, h2]; rfl
  refine ⟨fun lba buf bs o h => ?_, fun lba buf n bs o h => ?_, fun lba buf n bs o h => ?_, fun ranges o h => ?_⟩
  · rw [← key (C75_new_write6 L lba buf bs) h]
    have hc : o.cls = .write6 := by
      simp only [newWrite6, bind_eq_ok] at h
      obtain ⟨_, _, _, _, _, _, _, _, _, _, ho⟩ := h
      rw [← Except.ok.inj ho]
    apply C75_ignored <;> rw [hc] <;> decide
  · rw [← key (C75_new_writeSame10 L lba buf n bs) h]
    apply C75_ignored <;> rw [new_cls_same10 h] <;> decide
  · rw [← key (C75_new_writeSame16 L lba buf n bs) h]
    have hc : o.cls = .writeSame16 := by
      simp only [newWriteSame16, bind_eq_ok] at h
      obtain ⟨-, -, -, -, -, -, ho⟩ := h
      rw [← Except.ok.inj ho]
    apply C75_ignored <;> rw [hc] <;> decide
  · rw [← key (C75_new_unmap L ranges) h]
    have hc : o.cls = .unmap := by
      simp only [newUnmap, bind_eq_ok] at h
      obtain ⟨_, _, _, _, ho⟩ := h
      rw [← Except.ok.inj ho]
    apply C75_ignored <;> rw [hc] <;> decide

/-- **C82 fails for WRITE(6) with `fua` assigned**: nobody complains, the write is acknowledged and its data is gone. -/
theorem C82_ignored_false (g : Geometry) (hg : Valid g) (l : Bool) (alloc : Nat → Alloc) (t : Int) (ht : 0 ≤ t ∧ t < 2 ^ 32) (rd : Cmd)
    (lba n : Nat) (data : Bytes) (hl : lba < 2 ^ 21) (hn : 0 < n ∧ n ≤ 256) (hd : data.length = n * g.size) (hin : lba + n ≤ g.blocks)
    (hrd : Commands.Asks g rd (.read lba n)) (m : Contents) (hne : readAt m (lba * g.size) data.length ≠ data)
    (hok : Commands.Carried L (LinuxOk alloc) [.write6 lba data g.size, .testUnitReady, rd])
    (w : W Handle K (Option Bytes) (DevErr Sense) (World (State × Option Bytes))) (hw : LinuxIdle w.st w.os (doomed m)) :
    ∃ obj w' a old, newWrite6 lba data g.size = .ok obj ∧
      RunAll (machine (T := T) (Linux.sgBlocking (lp64 l) getSense (Linux.sgDevice l (cached g))).plat (Linux.prepare (lp64 l) alloc t))
        [objCommand L (obj.set "fua" 1), Cmd.testUnitReady.command L B other, rd.command L B other] w
        [.ok (some (.obj (.raw none))), a, .ok (some (.obj (.raw (some old))))] w' ∧ Got.Raised a 6 0x29 0 ∧ old ≠ data := by
  have hs := hg.size.1
  obtain ⟨obj, ho⟩ : ∃ obj, newWrite6 lba data g.size = .ok obj := by
    cases hx : newWrite6 lba data g.size with
    | ok obj => exact ⟨obj, rfl⟩
    | error e =>
      have h1 := C75_new_write6 L lba data g.size
      rw [hx] at h1
      have h2 := (Cdb.C28_write6 L lba data g.size _ (by omega)).2 ⟨by omega, n, by rw [hd]; simp, by omega, by omega, by omega, rfl⟩
      rw [← h1] at h2
      cases h2
  have he : objCommand L (obj.set "fua" 1) = (Cmd.write6 lba data g.size).command L B other := by
    unfold objCommand Cmd.command
    rw [(C82_ignored L 1).1 _ _ _ _ ho]
    rfl
  obtain ⟨w', a, old, h1, h2, h3⟩ := C82_default_false (K := K) (T := T) L B other g hg l alloc t ht (.write6 lba data g.size) rd lba n data hd hin
    (.write6 hl hd hn.1 (by omega)) hrd m hne hok w hw
  exact ⟨obj, w', a, old, ho, by rw [he]; exact h1, h2, h3⟩

/-! ## The hypotheses are met -/

/-- A disk of 1000 blocks of 512 bytes on Linux. `cmd = Write10Command(3, data); cmd.fua = 1`; then anything is destaged and the power fails; WRITE(6)
at block 9 is told of it; then the power fails again; READ(16) of blocks 3 and 4 with FUA. -/
example (L : Lib) (B : Parse.BufLib) (other : Bytes → Py (List (String × Int))) (data block : Bytes) (hd : data.length = 1024)
    (hb : block.length = 512) (m : Contents) (which : Nat → Bool) :
    ∃ wr rd w' as, newWrite10 3 data 512 = .ok wr ∧ newRead16 3 2 512 = .ok rd ∧
      RunAll (machine (T := Unit) (Linux.sgBlocking (K := Unit) (lp64 true) getSense (Linux.sgDevice true (cached ⟨512, 1000⟩))).plat
        (Linux.prepare (lp64 true) (fun _ => { block := 4096, sense := 8192, cmd := 12288, data := 16384 }) 30000))
        [objCommand L (wr.sets [("fua", 1)]), (Cmd.write6 9 block 512).command L B other, objCommand L (rd.sets [("fua", 1)])]
        { st := { pending := [], index := 6, maxq := 7 },
          os := { mem := fun _ => 0xEE, kernel := ({ medium := m, seen := m, attention := false, coming := [[], [.destage which, .powerLoss], [.powerLoss]] }, none) },
          fired := [], box := fun _ => [] } as w' ∧
      ((∃ a, as.head? = some a ∧ Shows a .done) → ∃ z, as.getLast? = some z ∧ Final data { fua := 1 } z) := by
  have hg : Valid ⟨512, 1000⟩ := ⟨by decide, by decide⟩
  obtain ⟨wr, hwr⟩ : ∃ o, newWrite10 3 data 512 = .ok o := by
    refine ⟨⟨.write10, [("transfer_length", 2), ("block_size", 512), ("logical_block_address", 3)], data⟩, ?_⟩
    simp only [newWrite10, hd]
    rfl
  obtain ⟨rd, hrd⟩ : ∃ o, newRead16 3 2 512 = .ok o := ⟨_, rfl⟩
  have as1 : Assigned [("fua", 1)] (writeNames { fua := 1 }) := by
    intro p hp; simp [writeNames] at hp; rcases hp with rfl | rfl | rfl | rfl | rfl | rfl | rfl <;> rfl
  have as2 : Assigned [("fua", 1)] (read16Names { fua := 1 }) := by
    intro p hp; simp [read16Names] at hp; rcases hp with rfl | rfl | rfl | rfl | rfl | rfl | rfl | rfl <;> rfl
  have a1 : Asks ⟨512, 1000⟩ L B other (objCommand L (wr.sets [("fua", 1)])) (.write { fua := 1 } 3 data) :=
    .write10 (n := 2) hwr (k := 2) (by rw [hd]; rfl) (by decide) rfl as1 rfl rfl hd (by decide) (by decide)
  have a2 : Asks ⟨512, 1000⟩ L B other (objCommand L (rd.sets [("fua", 1)])) (.read { fua := 1 } 3 2) :=
    .read16 hrd (by decide) rfl as2 rfl rfl rfl (by decide) (by decide)
  have fit : ∀ q : Req, q.cdb.length ≤ 16 → dataSize q ≤ 1024 →
      LinuxOk (fun _ => { block := 4096, sense := 8192, cmd := 12288, data := 16384 }) q := by
    intro q h1 h2
    refine ⟨by omega, by omega, fun _ => ⟨?_, ?_⟩⟩
    · simp; omega
    · simp
  have hok : Carried (LinuxOk fun _ => { block := 4096, sense := 8192, cmd := 12288, data := 16384 })
      (objCommand L (wr.sets [("fua", 1)]) :: [(Cmd.write6 9 block 512).command L B other] ++ [objCommand L (rd.sets [("fua", 1)])]) := by
    intro c hc q hq
    simp only [List.cons_append, List.nil_append, List.mem_cons, List.not_mem_nil, or_false] at hc
    rcases hc with rfl | rfl | rfl
    · cases (C75_write10 L 3 data 512 2 wr _ { fua := 1 } 3 2 hwr (by rw [hd]; rfl) (by decide) rfl as1 rfl rfl (by decide) (by decide)).symm.trans hq
      exact fit _ (by simp [Req.cdb, Spec.Options.cdb10]) (by simp [dataSize, hd])
    · obtain ⟨-, k, -, -, -, -, rfl⟩ := (Cdb.C28_write6 L 9 block 512 q (by decide)).1 hq
      exact fit _ (by simp [Req.cdb, Spec.Cdb.write6, Cdb.cdb6]) (by simp [dataSize, hb])
    · cases (C75_read16 L 3 2 512 rd _ { fua := 1 } 3 2 512 hrd (by decide) rfl as2 rfl rfl rfl (by decide) (by decide)).symm.trans hq
      exact fit _ (by simp [Req.cdb, Spec.Options.cdb16]) (by simp [dataSize])
  obtain ⟨w', as, h1, h2⟩ := C82_survives_linux (K := Unit) (T := Unit) L B other ⟨512, 1000⟩ _ _ .done [(Cmd.write6 9 block 512).command L B other] [.plain (.write 9 block)] _ _ 3 2 data
    hg true (fun _ => { block := 4096, sense := 8192, cmd := 12288, data := 16384 }) 30000 (by decide) hd (by decide) a1 .write rfl
    (.cons (.plain (Commands.Asks.write6 (g := ⟨512, 1000⟩) (lba := 9) (n := 1) (by decide) hb (by decide) (by decide))) .nil)
    (by simp [Op.base, Disk.Op.Spares]) a2 rfl hok
    { st := { pending := [], index := 6, maxq := 7 },
      os := { mem := fun _ => 0xEE, kernel := ({ medium := m, seen := m, attention := false, coming := [[], [.destage which, .powerLoss], [.powerLoss]] }, none) },
      fired := [], box := fun _ => [] } _ ⟨rfl, by simp, by simp, by simp, rfl⟩
  exact ⟨wr, rd, w', as, hwr, hrd, h1, h2⟩

/-- The write of that session is acknowledged, and a second read after the power failures gets the data. -/
example (data block : Bytes) (hd : data.length = 1024) (m : Contents) (which : Nat → Bool) :
    (runOps ⟨512, 1000⟩ [.write { fua := 1 } 3 data, .plain (.write 9 block), .read { fua := 1 } 3 2, .read {} 3 2]
      { medium := m, seen := m, attention := false, coming := [[], [.destage which, .powerLoss], [.powerLoss]] }).1 =
        [.done, .failed 6 0x29 0, .failed 6 0x29 0, .data data] := by
  simp only [runOps, Op.run, State.next, List.headD, List.tail, List.foldl, Event.happen, Op.opts, Op.base, Disk.Op.run, Disk.Op.span, hd, Bool.false_eq_true,
    if_false, if_true]
  simp [Reply.isFailed, Event.happen]
  have h : Holds (settle ⟨512, 1000⟩ m (writeAt m 1536 data) (3, 2)) (3 * 512) data :=
    holds_settled ⟨512, 1000⟩ m _ 3 2 data hd (readAt_writeAt m 1536 data)
  have h' := holds_merge (z := fun x => if which x = true then writeAt m 1536 data x else settle ⟨512, 1000⟩ m (writeAt m 1536 data) (3, 2) x)
    (readAt_writeAt m 1536 data : Holds _ (3 * 512) data) h fun i => by
      split
      · exact .inl rfl
      · exact .inr rfl
  rw [Holds, hd] at h'
  exact h'

/-- `cmd = Write6Command(9, 512 bytes of 0xAA); cmd.fua = 1` on a disk of zeros; the power fails after it. -/
example (L : Lib) (B : Parse.BufLib) (other : Bytes → Py (List (String × Int))) :
    ∃ obj w' a old, newWrite6 9 (List.replicate 512 0xAA) 512 = .ok obj ∧
      RunAll (machine (T := Unit) (Linux.sgBlocking (K := Unit) (lp64 true) getSense (Linux.sgDevice true (cached ⟨512, 1000⟩))).plat
        (Linux.prepare (lp64 true) (fun _ => { block := 4096, sense := 8192, cmd := 12288, data := 16384 }) 30000))
        [objCommand L (obj.set "fua" 1), Cmd.testUnitReady.command L B other, (Cmd.read10 9 1 512).command L B other]
        { st := { pending := [], index := 6, maxq := 7 }, os := { mem := fun _ => 0xEE, kernel := (doomed fun _ => 0, none) }, fired := [], box := fun _ => [] }
        [.ok (some (.obj (.raw none))), a, .ok (some (.obj (.raw (some old))))] w' ∧ Got.Raised a 6 0x29 0 ∧ old ≠ List.replicate 512 0xAA := by
  have hl : (List.replicate 512 (0xAA : UInt8)).length = 512 := List.length_replicate
  refine C82_ignored_false L B other ⟨512, 1000⟩ ⟨by decide, by decide⟩ true _ 30000 (by decide) (.read10 9 1 512) 9 1 _ (by decide) (by decide) hl (by decide)
    (.read10 (lba := 9) (n := 1) (by decide) (by decide)) (fun _ => 0) ?_ ?_ _ ⟨rfl, by simp, by simp, by simp, rfl⟩
  · intro h
    rw [hl] at h
    have h1 : (readAt (fun _ => 0) (9 * 512) 512)[0]? = some 0 := by simp [readAt]
    have h2 : (List.replicate 512 (0xAA : UInt8))[0]? = some 0xAA := List.getElem?_replicate_of_lt (by decide)
    rw [show readAt (fun _ => 0) (9 * 512) 512 = List.replicate 512 0xAA from h, h2] at h1
    exact absurd h1 (by decide)
  · have fit : ∀ q : Req, q.cdb.length ≤ 16 → dataSize q ≤ 1024 →
        LinuxOk (fun _ => { block := 4096, sense := 8192, cmd := 12288, data := 16384 }) q := by
      intro q h1 h2
      refine ⟨by omega, by omega, fun _ => ⟨?_, ?_⟩⟩
      · simp; omega
      · simp
    intro c hc q hq
    simp only [List.mem_cons, List.not_mem_nil, or_false] at hc
    rcases hc with rfl | rfl | rfl
    · obtain ⟨-, k, -, -, -, -, rfl⟩ := (Cdb.C28_write6 L 9 (List.replicate 512 0xAA) 512 q (by decide)).1 hq
      exact fit _ (by simp [Req.cdb, Spec.Cdb.write6, Cdb.cdb6]) (by simp only [dataSize, hl]; decide)
    · cases (Cdb.C36_test_unit_ready L).symm.trans hq
      exact fit _ (by decide) (by decide)
    · cases (Cdb.C26_read10 L 9 1 512 (by simp [Cdb.Fits]) (by simp [Cdb.Fits])).symm.trans hq
      exact fit _ (by simp [Req.cdb, Spec.Cdb.read10, Cdb.cdb10]) (by simp [dataSize])

end Verif.Durable
