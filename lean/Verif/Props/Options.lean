import Verif.Options
import Verif.Spec.Options
import Verif.Cdb.Lemmas

set_option linter.unusedSimpArgs false

/-!
# C75: options assigned to a command object reach the device where the standards put them
-/

namespace Verif.Options

open Verif.Cdb
open Verif.Spec.Options (Opts last)

/-! ## Attributes after a sequence of assignments -/

theorem sets_cons (o : Obj) (p : String × Int) (l : List (String × Int)) : o.sets (p :: l) = (o.set p.1 p.2).sets l := rfl

@[simp] theorem sets_cls (o : Obj) (l : List (String × Int)) : (o.sets l).cls = o.cls := by
  induction l generalizing o with
  | nil => rfl
  | cons p l ih => rw [sets_cons, ih]; rfl

@[simp] theorem sets_buffer (o : Obj) (l : List (String × Int)) : (o.sets l).buffer = o.buffer := by
  induction l generalizing o with
  | nil => rfl
  | cons p l ih => rw [sets_cons, ih]; rfl

theorem lookup_set (o : Obj) (name n : String) (v : Int) :
    (o.set n v).attrs.lookup name = if n = name then some v else o.attrs.lookup name := by
  simp only [Obj.set, List.lookup]
  by_cases h : n = name
  · subst h; simp
  · have : (name == n) = false := by simp [Ne.symm h]
    simp [this, h]

theorem last_cons (p : String × Int) (l : List (String × Int)) (name : String) (v : Int) :
    last (p :: l) name v = last l name (if p.1 = name then p.2 else v) := rfl

theorem lookup_sets (o : Obj) (l : List (String × Int)) (name : String) (v : Int) (h : o.attrs.lookup name = some v) :
    (o.sets l).attrs.lookup name = some (last l name v) := by
  induction l generalizing o v with
  | nil => exact h
  | cons p l ih =>
    rw [sets_cons, last_cons]
    apply ih
    rw [lookup_set]
    split <;> simp_all

theorem attr_sets (o : Obj) (l : List (String × Int)) (name : String) (d : Option Int) (v : Int)
    (h : o.attrs.lookup name = some v) : attr (o.sets l).attrs name d = .ok (last l name v) := by
  simp only [attr, lookup_sets o l name v h]

theorem attr_sets_default (o : Obj) (l : List (String × Int)) (name : String) (v : Int)
    (h : o.attrs.lookup name = none) : attr (o.sets l).attrs name (some v) = .ok (last l name v) := by
  induction l generalizing o v with
  | nil => simp only [attr, Obj.sets, List.foldl, h]; rfl
  | cons p l ih =>
    rw [sets_cons, last_cons]
    by_cases hp : p.1 = name
    · rw [if_pos hp]
      exact attr_sets _ l name _ _ (by rw [lookup_set, if_pos hp])
    · rw [if_neg hp]
      exact ih _ _ (by rw [lookup_set, if_neg hp]; exact h)

/-! ## A new object, executed as it is, sends the request of `Verif.Cdb` -/

theorem op_byte (L : Lib) (env : Attrs) (r : List Decl) (op : Nat) (h : op < 256)
    (h1 : env.lookup "command_code" = none) (h2 : env.lookup "group_code" = none) :
    pack L env (opcode op :: r) = pack L env (.const [byte op] :: r) := by
  have e1 : op &&& 0x1f = op % 32 := Nat.and_two_pow_sub_one_eq_mod op 5
  have e2 : op >>> 5 = op / 32 := Nat.shiftRight_eq_div_pow op 5
  have g1 : L.enc 5 (op % 32 : Int) = .ok (op % 32) := by
    have := L.enc_ok 5 (op % 32) (by omega); simpa using this
  have g2 : L.enc 3 (op / 32 : Int) = .ok (op / 32) := by
    have := L.enc_ok 3 (op / 32) (by omega); simpa using this
  have g3 : (op % 32 + op / 32 * 32) % 256 = op := by omega
  have hp : packDecl L env (opcode op) = .ok [byte op] := by
    have hb : packBits L env [.field "command_code" 5 (some (op &&& 0x1f : Nat)), .field "group_code" 3 (some (op >>> 5 : Nat))] =
        .ok (op % 32 + op / 32 * 32) := by
      simp [packBits, attr, h1, h2, e1, e2, g1, g2]
    rw [opcode, packDecl_bits, hb]
    simp only [ok_bind, bitsWidth, BitDecl.width, le, g3]
  simp only [pack, hp]
  rfl

theorem pyAssert_assoc {α β : Type} (c : Bool) (f : Unit → Py α) (g : α → Py β) :
    ((pyAssert c >>= f) >>= g) = (pyAssert c >>= fun u => f u >>= g) := by
  cases c <;> rfl

theorem bind_assoc' {α β γ : Type} (x : Py α) (f : α → Py β) (g : β → Py γ) :
    ((x >>= f) >>= g) = (x >>= fun u => f u >>= g) := by
  cases x <;> rfl

/-- Evaluate construction and execution of an object with concrete declarations. -/
macro "new_eq" "[" ls:Lean.Parser.Tactic.simpLemma,* "]" : tactic => `(tactic| (
  simp only [$ls,*, bind_assoc', ok_bind]
  simp only [Obj.execute, Obj.executeWith, Obj.datagram, Obj.prepared, Obj.packed, Cls.positional, Cls.resets, Bool.false_eq_true, Obj.get, Cls.fields, Cls.op, Cls.places, controlPlaces, placed, reduceCtorEq, if_false, if_true]
  simp [fields6, read10Fields, read12Fields, read16Fields, op_byte, pack, packDecl_uint, packDecl_bits, packDecl_pad,
    packBits, bitsWidth, BitDecl.width,
    write10Fields, write12Fields, write16Fields, writeSame10Fields, writeSame16Fields, compareAndWriteFields, unmapFields,
    writeFlags, groupNumber, Cdb.control, opcode,
    List.lookup, bind_assoc', attr, packDecl, Lib.enc_int, le]))

theorem C75_new_read6 (L : Lib) (lba n bs : Int) : (newRead6 lba n bs >>= Obj.execute L) = read6 L lba n bs := by
  new_eq [newRead6, read6]

theorem C75_new_read10 (L : Lib) (lba n bs : Int) : (newRead10 lba n bs >>= Obj.execute L) = read10 L lba n bs := by
  new_eq [newRead10, read10]

theorem C75_new_read12 (L : Lib) (lba n bs : Int) : (newRead12 lba n bs >>= Obj.execute L) = read12 L lba n bs := by
  new_eq [newRead12, read12]

theorem C75_new_read16 (L : Lib) (lba n bs : Int) : (newRead16 lba n bs >>= Obj.execute L) = read16 L lba n bs := by
  new_eq [newRead16, read16]

theorem C75_new_write6 (L : Lib) (lba : Int) (buf : Bytes) (bs : Int) :
    (newWrite6 lba buf bs >>= Obj.execute L) = write6 L lba buf bs := by
  new_eq [newWrite6, write6]

theorem C75_new_write10 (L : Lib) (lba : Int) (buf : Bytes) (bs : Int) :
    (newWrite10 lba buf bs >>= Obj.execute L) = write10 L lba buf bs := by
  new_eq [newWrite10, write10]

theorem C75_new_write12 (L : Lib) (lba : Int) (buf : Bytes) (bs : Int) :
    (newWrite12 lba buf bs >>= Obj.execute L) = write12 L lba buf bs := by
  new_eq [newWrite12, write12]

theorem C75_new_write16 (L : Lib) (lba : Int) (buf : Bytes) (bs : Int) :
    (newWrite16 lba buf bs >>= Obj.execute L) = write16 L lba buf bs := by
  new_eq [newWrite16, write16]

theorem C75_new_writeSame10 (L : Lib) (lba : Int) (buf : Bytes) (n bs : Int) :
    (newWriteSame10 lba buf n bs >>= Obj.execute L) = writeSame10 L lba buf n bs := by
  new_eq [newWriteSame10, writeSame10]

theorem C75_new_writeSame16 (L : Lib) (lba : Int) (buf : Bytes) (n bs : Int) :
    (newWriteSame16 lba buf n bs >>= Obj.execute L) = writeSame16 L lba buf n bs := by
  new_eq [newWriteSame16, writeSame16]

theorem C75_new_compareAndWrite (L : Lib) (lba : Int) (buf : Bytes) (n bs : Int) :
    (newCompareAndWrite lba buf n bs >>= Obj.execute L) = compareAndWrite L lba buf n bs := by
  new_eq [newCompareAndWrite, compareAndWrite]

theorem unmap_execute (L : Lib) (n : Int) (bs : Bytes) : Obj.execute L ⟨.unmap, [("parameter_list_length", n)], bs⟩ =
    (pack L [("parameter_list_length", n)] unmapFields >>= fun cdb => .ok (.write cdb bs)) := by
  have h := op_byte L [("parameter_list_length", n)] unmapFields.tail 0x42 (by decide) (by simp [List.lookup]) (by simp [List.lookup])
  have h' : opcode 0x42 :: unmapFields.tail = unmapFields := rfl
  have hb : byte 0x42 = 0x42 := by decide
  rw [h', hb] at h
  rw [h]
  simp only [Obj.execute, Obj.executeWith, Obj.datagram, Obj.prepared, Obj.packed, Cls.positional, Cls.resets, Bool.false_eq_true, Cls.fields, Cls.op, reduceCtorEq, if_false]

theorem C75_new_unmap (L : Lib) (ranges : List (Int × Int)) :
    (newUnmap L ranges >>= Obj.execute L) = unmap L ranges := by
  unfold newUnmap unmap
  cases unmapBlocks L ranges with
  | error e => rw [err_bind, err_bind, err_bind]
  | ok blocks =>
    rw [ok_bind, ok_bind]
    cases unmapHeader L blocks.length with
    | error e => rw [err_bind, err_bind, err_bind]
    | ok header =>
      rw [ok_bind, ok_bind]
      exact unmap_execute L _ _

theorem C75_new_inquiry (L : Lib) (evpd page alloc : Int) :
    (newInquiry evpd page alloc >>= Obj.execute L) = inquiry L evpd page alloc := by
  new_eq [newInquiry, inquiry]

theorem C75_new_readCapacity10 (L : Lib) (lba pmi : Int) :
    (newReadCapacity10 lba pmi >>= Obj.execute L) = readCapacity10 L lba pmi := by
  new_eq [newReadCapacity10, readCapacity10]

theorem C75_new_readCapacity16 (L : Lib) (lba pmi : Int) :
    (newReadCapacity16 lba pmi >>= Obj.execute L) = readCapacity16 L lba pmi := by
  new_eq [newReadCapacity16, readCapacity16]

theorem C75_new_reportLuns (L : Lib) (select alloc : Int) :
    (newReportLuns select alloc >>= Obj.execute L) = reportLuns L select alloc := by
  new_eq [newReportLuns, reportLuns]

theorem C75_new_rtpg (L : Lib) (fmt alloc : Int) :
    (newRtpg fmt alloc >>= Obj.execute L) = rtpg L fmt alloc := by
  new_eq [newRtpg, rtpg]

/-! ## Bytes with options -/

theorem byte_mod (n m : Nat) (h : n % 256 = m % 256) : byte n = byte m := by
  rw [byte_eq_iff]; exact h

theorem flags_pack (L : Lib) (env : Attrs) (pn : String) (f : Opts) (hv : f.Valid) (hr : f.rel = 0)
    (hp : attr env pn (some 0) = .ok (f.protect : Int)) (hd : attr env "dpo" (some 0) = .ok (f.dpo : Int))
    (hf : attr env "fua" (some 0) = .ok (f.fua : Int)) (hn : attr env "fua_nv" (some 0) = .ok (f.fuaNv : Int)) :
    packDecl L env (.bits [.pad 1, .field "fua_nv" 1 (some 0), .pad 1, .field "fua" 1 (some 0), .field "dpo" 1 (some 0),
      .field pn 3 (some 0)]) = .ok [Spec.Options.flags f] := by
  obtain ⟨h1, h2, h3, h4, -⟩ := hv
  rw [packDecl_bits]
  simp only [packBits, hp, hd, hf, hn, ok_bind, L.enc_ok 3 _ h1, L.enc_ok 1 _ h2, L.enc_ok 1 _ h3, L.enc_ok 1 _ h4, bitsWidth,
    BitDecl.width, le, Spec.Options.flags, hr]
  congr 2
  apply byte_mod
  omega

theorem control_pack (L : Lib) (env : Attrs) (n v : Nat) (hn : n < 2) (hv : v < 4)
    (h1 : attr env "naca" (some 0) = .ok (n : Int)) (h2 : attr env "vendor_specific" (some 0) = .ok (v : Int)) :
    packDecl L env Cdb.control = .ok [Spec.Options.control n v] := by
  rw [Cdb.control, packDecl_bits]
  simp only [packBits, h1, h2, ok_bind, L.enc_ok 1 _ hn, L.enc_ok 2 _ hv, bitsWidth, BitDecl.width, le, Spec.Options.control]
  congr 2
  apply byte_mod
  omega

theorem group_pack (L : Lib) (env : Attrs) (name : String) (g : Nat) (hg : g < 32) (h : attr env name (some 0) = .ok (g : Int)) :
    packDecl L env (.bits [.field name 5 (some 0), .pad 3]) = .ok [byte g] := by
  rw [packDecl_bits]
  simp only [packBits, h, ok_bind, L.enc_ok 5 _ hg, bitsWidth, BitDecl.width, le]
  congr 2
  apply byte_mod
  omega

theorem uint_pack (L : Lib) (env : Attrs) (name : String) (n v : Nat) (h : attr env name none = .ok (v : Int)) (hv : v < 256 ^ n) :
    packDecl L env (.uint name n) = .ok (be n v) := by
  have h2 : ((v : Nat) : Int) < ((256 ^ n : Nat) : Int) := Int.ofNat_lt.mpr hv
  rw [Int.natCast_pow] at h2
  rw [packDecl_uint, h, ok_bind, packUInt_ok (Int.natCast_nonneg v) h2]
  rfl

theorem const_pack (L : Lib) (env : Attrs) (bs : Bytes) : packDecl L env (.const bs) = .ok bs := rfl

/-- The attributes in the list have the values beside them once the assignments are made; all of them start as 0. -/
def Assigned (sets : List (String × Int)) (l : List (String × Nat)) : Prop := ∀ p ∈ l, last sets p.1 0 = p.2

theorem attr_assigned {o : Obj} {sets : List (String × Int)} {l : List (String × Nat)} (h : Assigned sets l) (name : String) (v : Nat)
    (hm : (name, v) ∈ l) (hn : o.attrs.lookup name = none) : attr (o.sets sets).attrs name (some 0) = .ok (v : Int) := by
  rw [attr_sets_default o sets name 0 hn, h _ hm]

/-- The request of a changed object, given what its datagram and attributes are. -/
theorem execute_read (L : Lib) (o : Obj) (h : o.cls = .read10 ∨ o.cls = .read12 ∨ o.cls = .read16) (cdb : Bytes) (b m : Int)
    (hp : pack L o.attrs (.const [o.cls.op] :: o.cls.fields) = .ok cdb) (hb : attr o.attrs "block_size" none = .ok b)
    (hm : attr o.attrs "transfer_length" none = .ok m) : o.execute L = .ok (.read cdb (b * m)) := by
  rcases h with h | h | h <;>
    simp only [Obj.execute, Obj.executeWith, h, Obj.datagram, Obj.prepared, Obj.packed, Cls.positional, Cls.resets, Bool.false_eq_true, reduceCtorEq, if_false, Obj.get, hb, hm, ok_bind] <;> rw [h] at hp <;> rw [hp, ok_bind]

theorem execute_write (L : Lib) (o : Obj) (h : o.cls = .write6 ∨ o.cls = .write10 ∨ o.cls = .write12 ∨ o.cls = .write16 ∨ o.cls = .writeSame10 ∨
    o.cls = .writeSame16 ∨ o.cls = .unmap) (cdb : Bytes) (hp : pack L o.attrs (.const [o.cls.op] :: o.cls.fields) = .ok cdb) :
    o.execute L = .ok (.write cdb o.buffer) := by
  rcases h with h | h | h | h | h | h | h <;>
    simp only [Obj.execute, Obj.executeWith, h, Obj.datagram, Obj.prepared, Obj.packed, Cls.positional, Cls.resets, Bool.false_eq_true, reduceCtorEq, if_false] <;> rw [h] at hp <;> rw [hp, ok_bind]

/-- Evaluate the datagram of a class field by field. -/
macro "fields" "[" ls:Lean.Parser.Tactic.simpLemma,* "]" : tactic => `(tactic| (
  simp only [Cls.fields, Cls.op, fields6, read10Fields, read12Fields, read16Fields, write10Fields, write12Fields, write16Fields,
    writeSame10Fields, writeSame16Fields, compareAndWriteFields, unmapFields, writeFlags, groupNumber, List.tail, pack, const_pack,
    packDecl_pad, $ls,*, ok_bind]))

/-- What is known of the attributes of a changed object. -/
macro "known" h:term : tactic => `(tactic| (rw [← $h]; simp [List.lookup]))

/-! ## READ -/

/-- The names READ(10) has for the options. -/
def read10Names (f : Opts) : List (String × Nat) := [("rdprotect", f.protect), ("dpo", f.dpo), ("fua", f.fua), ("fua_nv", f.fuaNv),
  ("group_number", f.group), ("naca", f.naca), ("vendor_specific", f.vendor)]

/-- **C75** for READ(10): whatever is assigned to a new command before it is executed, if the values fit the block sent is the one with the
address, length and options last assigned, and the buffer asked for has the assigned number of blocks of the assigned size. -/
theorem C75_read10 (L : Lib) (lba n bs : Int) (o : Obj) (sets : List (String × Int)) (f : Opts) (a m : Nat) (b : Int)
    (hnew : newRead10 lba n bs = .ok o) (hf : f.Valid) (hr : f.rel = 0) (hs : Assigned sets (read10Names f))
    (hl : last sets "logical_block_address" lba = a) (hm : last sets "transfer_length" n = m) (hb : last sets "block_size" bs = b)
    (ha : a < 2 ^ 32) (hm' : m < 2 ^ 16) :
    (o.sets sets).execute L = .ok (.read (Spec.Options.cdb10 0x28 f a m) (b * m)) := by
  simp only [newRead10, bind_eq_ok, pyAssert_eq_ok] at hnew
  obtain ⟨-, -, -, -, ho⟩ := hnew
  have ho := Except.ok.inj ho
  obtain ⟨_, _, _, _, _, hg, h7, h8, h9⟩ := id hf
  have hc : (o.sets sets).cls = .read10 := by rw [sets_cls, ← ho]
  have el := attr_sets o sets "logical_block_address" none lba (by known ho)
  have em := attr_sets o sets "transfer_length" none n (by known ho)
  have eb := attr_sets o sets "block_size" none bs (by known ho)
  rw [hl] at el; rw [hm] at em; rw [hb] at eb
  have e := fun name v hm => attr_assigned (o := o) hs name v hm
  refine execute_read L _ (.inl hc) _ b m ?_ eb em
  rw [hc]
  fields [flags_pack L _ "rdprotect" f hf hr (e _ _ (by simp [read10Names]) (by known ho)) (e _ _ (by simp [read10Names]) (by known ho))
      (e _ _ (by simp [read10Names]) (by known ho)) (e _ _ (by simp [read10Names]) (by known ho)),
    control_pack L _ f.naca f.vendor h8 h9 (e _ _ (by simp [read10Names]) (by known ho)) (e _ _ (by simp [read10Names]) (by known ho)),
    group_pack L _ "group_number" f.group hg (e _ _ (by simp [read10Names]) (by known ho)),
    uint_pack L _ "logical_block_address" 4 a el ha, uint_pack L _ "transfer_length" 2 m em hm']
  simp [Spec.Options.cdb10]

/-- READ(12): the three protection bits are called `reserved`, there is the obsolete `RelAdr` and no group number. -/
def read12Names (f : Opts) : List (String × Nat) := [("reserved", f.protect), ("dpo", f.dpo), ("fua", f.fua), ("RelAdr", f.rel), ("naca", f.naca), ("vendor_specific", f.vendor)]

theorem flags12_pack (L : Lib) (env : Attrs) (f : Opts) (hv : f.Valid) (hr : f.fuaNv = 0)
    (hp : attr env "reserved" (some 0) = .ok (f.protect : Int)) (hd : attr env "dpo" (some 0) = .ok (f.dpo : Int))
    (hf : attr env "fua" (some 0) = .ok (f.fua : Int)) (hn : attr env "RelAdr" (some 0) = .ok (f.rel : Int)) :
    packDecl L env (.bits [.field "RelAdr" 1 (some 0), .pad 2, .field "fua" 1 (some 0), .field "dpo" 1 (some 0),
      .field "reserved" 3 (some 0)]) = .ok [Spec.Options.flags f] := by
  obtain ⟨h1, h2, h3, -, h4, -⟩ := hv
  rw [packDecl_bits]
  simp only [packBits, hp, hd, hf, hn, ok_bind, L.enc_ok 3 _ h1, L.enc_ok 1 _ h2, L.enc_ok 1 _ h3, L.enc_ok 1 _ h4, bitsWidth,
    BitDecl.width, le, Spec.Options.flags, hr]
  congr 2
  apply byte_mod
  omega

theorem zero_pack (L : Lib) (env : Attrs) : packDecl L env (.bits [.pad 8]) = .ok [0] := by
  simp [packDecl, packBits, bitsWidth, BitDecl.width, le]

/-- **C75** for READ(12). -/
theorem C75_read12 (L : Lib) (lba n bs : Int) (o : Obj) (sets : List (String × Int)) (f : Opts) (a m : Nat) (b : Int)
    (hnew : newRead12 lba n bs = .ok o) (hf : f.Valid) (hr : f.fuaNv = 0) (hg0 : f.group = 0) (hs : Assigned sets (read12Names f))
    (hl : last sets "logical_block_address" lba = a) (hm : last sets "transfer_length" n = m) (hb : last sets "block_size" bs = b)
    (ha : a < 2 ^ 32) (hm' : m < 2 ^ 32) :
    (o.sets sets).execute L = .ok (.read (Spec.Options.cdb12 0xA8 f a m) (b * m)) := by
  simp only [newRead12, bind_eq_ok, pyAssert_eq_ok] at hnew
  obtain ⟨-, -, -, -, ho⟩ := hnew
  have ho := Except.ok.inj ho
  obtain ⟨_, _, _, _, _, hg, h7, h8, h9⟩ := id hf
  have hc : (o.sets sets).cls = .read12 := by rw [sets_cls, ← ho]
  have el := attr_sets o sets "logical_block_address" none lba (by known ho)
  have em := attr_sets o sets "transfer_length" none n (by known ho)
  have eb := attr_sets o sets "block_size" none bs (by known ho)
  rw [hl] at el; rw [hm] at em; rw [hb] at eb
  have e := fun name v hm => attr_assigned (o := o) hs name v hm
  refine execute_read L _ (.inr <| .inl hc) _ b m ?_ eb em
  rw [hc]
  fields [flags12_pack L _ f hf hr (e _ _ (by simp [read12Names]) (by known ho)) (e _ _ (by simp [read12Names]) (by known ho))
      (e _ _ (by simp [read12Names]) (by known ho)) (e _ _ (by simp [read12Names]) (by known ho)),
    control_pack L _ f.naca f.vendor h8 h9 (e _ _ (by simp [read12Names]) (by known ho)) (e _ _ (by simp [read12Names]) (by known ho)),
    zero_pack, uint_pack L _ "logical_block_address" 4 a el ha, uint_pack L _ "transfer_length" 4 m em hm']
  simp [Spec.Options.cdb12, hg0]

/-- READ(16): the three protection bits are called `reserved`, bit 7 of byte 14 `mmc4`. -/
def read16Names (f : Opts) : List (String × Nat) := [("reserved", f.protect), ("dpo", f.dpo), ("fua", f.fua), ("fua_nv", f.fuaNv), ("group_number", f.group), ("mmc4", f.restricted), ("naca", f.naca), ("vendor_specific", f.vendor)]

theorem group16_pack (L : Lib) (env : Attrs) (g r : Nat) (hg : g < 32) (hr : r < 2)
    (h : attr env "group_number" (some 0) = .ok (g : Int)) (h' : attr env "mmc4" (some 0) = .ok (r : Int)) :
    packDecl L env (.bits [.field "group_number" 5 (some 0), .pad 2, .field "mmc4" 1 (some 0)]) = .ok [byte (r * 128 + g)] := by
  rw [packDecl_bits]
  simp only [packBits, h, h', ok_bind, L.enc_ok 5 _ hg, L.enc_ok 1 _ hr, bitsWidth, BitDecl.width, le]
  congr 2
  apply byte_mod
  omega

/-- **C75** for READ(16). -/
theorem C75_read16 (L : Lib) (lba n bs : Int) (o : Obj) (sets : List (String × Int)) (f : Opts) (a m : Nat) (b : Int)
    (hnew : newRead16 lba n bs = .ok o) (hf : f.Valid) (hr : f.rel = 0) (hs : Assigned sets (read16Names f))
    (hl : last sets "logical_block_address" lba = a) (hm : last sets "transfer_length" n = m) (hb : last sets "block_size" bs = b)
    (ha : a < 2 ^ 64) (hm' : m < 2 ^ 32) :
    (o.sets sets).execute L = .ok (.read (Spec.Options.cdb16 0x88 f a m) (b * m)) := by
  simp only [newRead16, bind_eq_ok, pyAssert_eq_ok] at hnew
  obtain ⟨-, -, -, -, ho⟩ := hnew
  have ho := Except.ok.inj ho
  obtain ⟨_, _, _, _, _, hg, h7, h8, h9⟩ := id hf
  have hc : (o.sets sets).cls = .read16 := by rw [sets_cls, ← ho]
  have el := attr_sets o sets "logical_block_address" none lba (by known ho)
  have em := attr_sets o sets "transfer_length" none n (by known ho)
  have eb := attr_sets o sets "block_size" none bs (by known ho)
  rw [hl] at el; rw [hm] at em; rw [hb] at eb
  have e := fun name v hm => attr_assigned (o := o) hs name v hm
  refine execute_read L _ (.inr <| .inr hc) _ b m ?_ eb em
  rw [hc]
  fields [flags_pack L _ "reserved" f hf hr (e _ _ (by simp [read16Names]) (by known ho)) (e _ _ (by simp [read16Names]) (by known ho))
      (e _ _ (by simp [read16Names]) (by known ho)) (e _ _ (by simp [read16Names]) (by known ho)),
    control_pack L _ f.naca f.vendor h8 h9 (e _ _ (by simp [read16Names]) (by known ho)) (e _ _ (by simp [read16Names]) (by known ho)),
    group16_pack L _ f.group f.restricted hg h7 (e _ _ (by simp [read16Names]) (by known ho)) (e _ _ (by simp [read16Names]) (by known ho)),
    uint_pack L _ "logical_block_address" 8 a el ha, uint_pack L _ "transfer_length" 4 m em hm']
  simp [Spec.Options.cdb16]

/-! ## WRITE -/

/-- The names WRITE(10), (12), (16) and COMPARE AND WRITE have for the options. -/
def writeNames (f : Opts) : List (String × Nat) := [("wrprotect", f.protect), ("dpo", f.dpo), ("fua", f.fua), ("fua_nv", f.fuaNv), ("group_number", f.group), ("naca", f.naca), ("vendor_specific", f.vendor)]

/-- **C75** for WRITE(10): whatever is assigned to a new command, the block sent is the one with the address, length and options last assigned, and the
data is the buffer it was constructed with. -/
theorem C75_write10 (L : Lib) (lba : Int) (buf : Bytes) (bs k : Int) (o : Obj) (sets : List (String × Int)) (f : Opts) (a m : Nat)
    (hnew : newWrite10 lba buf bs = .ok o) (hk : (buf.length : Int) = k * bs) (hf : f.Valid) (hr : f.rel = 0) (hs : Assigned sets (writeNames f))
    (hl : last sets "logical_block_address" lba = a) (hm : last sets "transfer_length" k = m) (ha : a < 2 ^ 32) (hm' : m < 2 ^ 16) :
    (o.sets sets).execute L = .ok (.write (Spec.Options.cdb10 0x2A f a m) buf) := by
  simp only [newWrite10, bind_eq_ok, pyAssert_eq_ok, pyDiv_eq_ok] at hnew
  obtain ⟨tl, ⟨hbs, htl⟩, -, -, -, -, -, -, -, -, ho⟩ := hnew
  rw [hk, Int.mul_fdiv_cancel _ hbs] at htl
  subst htl
  have ho := Except.ok.inj ho
  obtain ⟨_, _, _, _, _, hg, h7, h8, h9⟩ := id hf
  have hc : (o.sets sets).cls = .write10 := by rw [sets_cls, ← ho]
  have el := attr_sets o sets "logical_block_address" none lba (by known ho)
  have em := attr_sets o sets "transfer_length" none k (by known ho)
  rw [hl] at el; rw [hm] at em
  have e := fun name v hm => attr_assigned (o := o) hs name v hm
  have hbuf : buf = (o.sets sets).buffer := by rw [sets_buffer, ← ho]
  rw [hbuf]
  refine execute_write L _ (.inr <| .inl hc) _ ?_
  rw [hc]
  fields [flags_pack L _ "wrprotect" f hf hr (e _ _ (by simp [writeNames]) (by known ho)) (e _ _ (by simp [writeNames]) (by known ho))
      (e _ _ (by simp [writeNames]) (by known ho)) (e _ _ (by simp [writeNames]) (by known ho)),
    control_pack L _ f.naca f.vendor h8 h9 (e _ _ (by simp [writeNames]) (by known ho)) (e _ _ (by simp [writeNames]) (by known ho)),
    group_pack L _ "group_number" f.group hg (e _ _ (by simp [writeNames]) (by known ho)),
    uint_pack L _ "logical_block_address" 4 a el ha, uint_pack L _ "transfer_length" 2 m em hm']
  simp [Spec.Options.cdb10]

/-- **C75** for WRITE(12). -/
theorem C75_write12 (L : Lib) (lba : Int) (buf : Bytes) (bs k : Int) (o : Obj) (sets : List (String × Int)) (f : Opts) (a m : Nat)
    (hnew : newWrite12 lba buf bs = .ok o) (hk : (buf.length : Int) = k * bs) (hf : f.Valid) (hr : f.rel = 0) (hs : Assigned sets (writeNames f))
    (hl : last sets "logical_block_address" lba = a) (hm : last sets "transfer_length" k = m) (ha : a < 2 ^ 32) (hm' : m < 2 ^ 32) :
    (o.sets sets).execute L = .ok (.write (Spec.Options.cdb12 0xAA f a m) buf) := by
  simp only [newWrite12, bind_eq_ok, pyAssert_eq_ok, pyDiv_eq_ok] at hnew
  obtain ⟨tl, ⟨hbs, htl⟩, -, -, -, -, -, -, -, -, ho⟩ := hnew
  rw [hk, Int.mul_fdiv_cancel _ hbs] at htl
  subst htl
  have ho := Except.ok.inj ho
  obtain ⟨_, _, _, _, _, hg, h7, h8, h9⟩ := id hf
  have hc : (o.sets sets).cls = .write12 := by rw [sets_cls, ← ho]
  have el := attr_sets o sets "logical_block_address" none lba (by known ho)
  have em := attr_sets o sets "transfer_length" none k (by known ho)
  rw [hl] at el; rw [hm] at em
  have e := fun name v hm => attr_assigned (o := o) hs name v hm
  have hbuf : buf = (o.sets sets).buffer := by rw [sets_buffer, ← ho]
  rw [hbuf]
  refine execute_write L _ (.inr <| .inr <| .inl hc) _ ?_
  rw [hc]
  fields [flags_pack L _ "wrprotect" f hf hr (e _ _ (by simp [writeNames]) (by known ho)) (e _ _ (by simp [writeNames]) (by known ho))
      (e _ _ (by simp [writeNames]) (by known ho)) (e _ _ (by simp [writeNames]) (by known ho)),
    control_pack L _ f.naca f.vendor h8 h9 (e _ _ (by simp [writeNames]) (by known ho)) (e _ _ (by simp [writeNames]) (by known ho)),
    group_pack L _ "group_number" f.group hg (e _ _ (by simp [writeNames]) (by known ho)),
    uint_pack L _ "logical_block_address" 4 a el ha, uint_pack L _ "transfer_length" 4 m em hm']
  simp [Spec.Options.cdb12]

/-- **C75** for WRITE(16). -/
theorem C75_write16 (L : Lib) (lba : Int) (buf : Bytes) (bs k : Int) (o : Obj) (sets : List (String × Int)) (f : Opts) (a m : Nat)
    (hnew : newWrite16 lba buf bs = .ok o) (hk : (buf.length : Int) = k * bs) (hf : f.Valid) (hr : f.rel = 0) (h0 : f.restricted = 0) (hs : Assigned sets (writeNames f))
    (hl : last sets "logical_block_address" lba = a) (hm : last sets "transfer_length" k = m) (ha : a < 2 ^ 64) (hm' : m < 2 ^ 32) :
    (o.sets sets).execute L = .ok (.write (Spec.Options.cdb16 0x8A f a m) buf) := by
  simp only [newWrite16, bind_eq_ok, pyAssert_eq_ok, pyDiv_eq_ok] at hnew
  obtain ⟨tl, ⟨hbs, htl⟩, -, -, -, -, -, -, -, -, ho⟩ := hnew
  rw [hk, Int.mul_fdiv_cancel _ hbs] at htl
  subst htl
  have ho := Except.ok.inj ho
  obtain ⟨_, _, _, _, _, hg, h7, h8, h9⟩ := id hf
  have hc : (o.sets sets).cls = .write16 := by rw [sets_cls, ← ho]
  have el := attr_sets o sets "logical_block_address" none lba (by known ho)
  have em := attr_sets o sets "transfer_length" none k (by known ho)
  rw [hl] at el; rw [hm] at em
  have e := fun name v hm => attr_assigned (o := o) hs name v hm
  have hbuf : buf = (o.sets sets).buffer := by rw [sets_buffer, ← ho]
  rw [hbuf]
  refine execute_write L _ (.inr <| .inr <| .inr <| .inl hc) _ ?_
  rw [hc]
  fields [flags_pack L _ "wrprotect" f hf hr (e _ _ (by simp [writeNames]) (by known ho)) (e _ _ (by simp [writeNames]) (by known ho))
      (e _ _ (by simp [writeNames]) (by known ho)) (e _ _ (by simp [writeNames]) (by known ho)),
    control_pack L _ f.naca f.vendor h8 h9 (e _ _ (by simp [writeNames]) (by known ho)) (e _ _ (by simp [writeNames]) (by known ho)),
    group_pack L _ "group_number" f.group hg (e _ _ (by simp [writeNames]) (by known ho)),
    uint_pack L _ "logical_block_address" 8 a el ha, uint_pack L _ "transfer_length" 4 m em hm']
  simp [Spec.Options.cdb16, h0]

theorem execute_caw (L : Lib) (o : Obj) (h : o.cls = .compareAndWrite) (a m : Int)
    (el : attr o.attrs "logical_block_address" none = .ok a) (em : attr o.attrs "number_of_logical_blocks" none = .ok m)
    (ha : a < 2 ^ 64) (hm : m < 2 ^ 8) (cdb : Bytes)
    (hp : pack L o.attrs (.const [Cls.op .compareAndWrite] :: Cls.fields .compareAndWrite) = .ok cdb) :
    o.execute L = .ok (.write cdb o.buffer) := by
  simp only [Obj.execute, Obj.executeWith, h, Obj.datagram, Obj.prepared, Obj.packed, Cls.positional, Cls.resets, Bool.false_eq_true, Obj.get, el, em, ok_bind, reduceCtorEq, if_false, hp]
  rw [pyAssert_bind, if_pos (decide_eq_true ha), pyAssert_bind, if_pos (decide_eq_true hm)]

/-- **C75** for COMPARE AND WRITE. -/
theorem C75_compareAndWrite (L : Lib) (lba : Int) (buf : Bytes) (n bs : Int) (o : Obj) (sets : List (String × Int)) (f : Opts) (a m : Nat)
    (hnew : newCompareAndWrite lba buf n bs = .ok o) (hf : f.Valid) (hr : f.rel = 0) (hs : Assigned sets (writeNames f))
    (hl : last sets "logical_block_address" lba = a) (hm : last sets "number_of_logical_blocks" n = m) (ha : a < 2 ^ 64) (hm' : m < 2 ^ 8) :
    (o.sets sets).execute L = .ok (.write (Spec.Options.compareAndWrite f a m) buf) := by
  simp only [newCompareAndWrite, bind_eq_ok, pyAssert_eq_ok, pyDiv_eq_ok] at hnew
  obtain ⟨tl, -, -, -, -, -, ho⟩ := hnew
  have ho := Except.ok.inj ho
  obtain ⟨_, _, _, _, _, hg, h7, h8, h9⟩ := id hf
  have hc : (o.sets sets).cls = .compareAndWrite := by rw [sets_cls, ← ho]
  have el := attr_sets o sets "logical_block_address" none lba (by known ho)
  have em := attr_sets o sets "number_of_logical_blocks" none n (by known ho)
  rw [hl] at el; rw [hm] at em
  have e := fun name v hm => attr_assigned (o := o) hs name v hm
  have hbuf : buf = (o.sets sets).buffer := by rw [sets_buffer, ← ho]
  rw [hbuf]
  have hp : pack L (o.sets sets).attrs (.const [Cls.op .compareAndWrite] :: Cls.fields .compareAndWrite) =
      .ok (Spec.Options.compareAndWrite f a m) := by
    fields [flags_pack L _ "wrprotect" f hf hr (e _ _ (by simp [writeNames]) (by known ho)) (e _ _ (by simp [writeNames]) (by known ho))
      (e _ _ (by simp [writeNames]) (by known ho)) (e _ _ (by simp [writeNames]) (by known ho)),
      control_pack L _ f.naca f.vendor h8 h9 (e _ _ (by simp [writeNames]) (by known ho)) (e _ _ (by simp [writeNames]) (by known ho)),
      group_pack L _ "group_number" f.group hg (e _ _ (by simp [writeNames]) (by known ho)),
    uint_pack L _ "logical_block_address" 8 a el ha, uint_pack L _ "number_of_logical_blocks" 1 m em hm']
    simp [Spec.Options.compareAndWrite, zeros, List.replicate, be_one]
  exact execute_caw L _ hc a m el em (by omega) (by omega) _ hp

/-! ## WRITE SAME and UNMAP -/

/-- The names WRITE SAME(10) has for the options: there is no `unmap`. -/
def same10Names (p pb lb g c v : Nat) : List (String × Nat) := [("wrprotect", p), ("pbdata", pb), ("lbdata", lb), ("group_number", g), ("naca", c), ("vendor_specific", v)]

/-- The names WRITE SAME(16) has for the options. -/
def same16Names (p u pb lb g c v : Nat) : List (String × Nat) := [("wrprotect", p), ("unmap", u), ("pbdata", pb), ("lbdata", lb), ("group_number", g), ("naca", c), ("vendor_specific", v)]

/-- **C75** for WRITE SAME(10). -/
theorem C75_writeSame10 (L : Lib) (lba : Int) (buf : Bytes) (n bs : Int) (o : Obj) (sets : List (String × Int)) (p pb lb g c v a m : Nat)
    (hnew : newWriteSame10 lba buf n bs = .ok o) (hp : p < 8) (hpb : pb < 2) (hlb : lb < 2) (hg : g < 32) (hc1 : c < 2) (hv : v < 4)
    (hs : Assigned sets (same10Names p pb lb g c v))
    (hl : last sets "logical_block_address" lba = a) (hm : last sets "number_of_blocks" n = m) (ha : a < 2 ^ 32) (hm' : m < 2 ^ 16) :
    (o.sets sets).execute L = .ok (.write (Spec.Options.writeSame10 p pb lb g c v a m) buf) := by
  simp only [newWriteSame10, bind_eq_ok, pyAssert_eq_ok] at hnew
  obtain ⟨-, -, -, -, -, -, ho⟩ := hnew
  have ho := Except.ok.inj ho
  have hc : (o.sets sets).cls = .writeSame10 := by rw [sets_cls, ← ho]
  have el := attr_sets o sets "logical_block_address" none lba (by known ho)
  have em := attr_sets o sets "number_of_blocks" none n (by known ho)
  rw [hl] at el; rw [hm] at em
  have e := fun name v hm => attr_assigned (o := o) hs name v hm
  have e1 := e "wrprotect" p (by simp [same10Names]) (by known ho)
  have e2 := e "pbdata" pb (by simp [same10Names]) (by known ho)
  have e3 := e "lbdata" lb (by simp [same10Names]) (by known ho)
  have hbuf : buf = (o.sets sets).buffer := by rw [sets_buffer, ← ho]
  rw [hbuf]
  refine execute_write L _ (.inr <| .inr <| .inr <| .inr <| .inl hc) _ ?_
  rw [hc]
  have hflags : packDecl L (o.sets sets).attrs (.bits [.pad 1, .field "lbdata" 1 (some 0), .field "pbdata" 1 (some 0), .pad 2, .field "wrprotect" 3 (some 0)]) = .ok [Spec.Options.sameFlags p 0 pb lb] := by
    rw [packDecl_bits]
    simp only [packBits, e1, e2, e3, ok_bind, L.enc_ok 3 _ hp, L.enc_ok 1 _ hpb, L.enc_ok 1 _ hlb, bitsWidth, BitDecl.width, le,
      Spec.Options.sameFlags]
    congr 2
    apply byte_mod
    omega
  fields [hflags,
    control_pack L _ c v hc1 hv (e _ _ (by simp [same10Names]) (by known ho)) (e _ _ (by simp [same10Names]) (by known ho)),
    group_pack L _ "group_number" g hg (e _ _ (by simp [same10Names]) (by known ho)), uint_pack L _ "logical_block_address" 4 a el ha, uint_pack L _ "number_of_blocks" 2 m em hm']
  simp [Spec.Options.writeSame10]

/-- **C75** for WRITE SAME(16); a command with `unmap` set to 1 asks the device to deallocate. -/
theorem C75_writeSame16 (L : Lib) (lba : Int) (buf : Bytes) (n bs : Int) (o : Obj) (sets : List (String × Int)) (p u pb lb g c v a m : Nat)
    (hnew : newWriteSame16 lba buf n bs = .ok o) (hp : p < 8) (hu : u < 2) (hpb : pb < 2) (hlb : lb < 2) (hg : g < 32) (hc1 : c < 2) (hv : v < 4)
    (hs : Assigned sets (same16Names p u pb lb g c v))
    (hl : last sets "logical_block_address" lba = a) (hm : last sets "number_of_blocks" n = m) (ha : a < 2 ^ 64) (hm' : m < 2 ^ 32) :
    (o.sets sets).execute L = .ok (.write (Spec.Options.writeSame16 p u pb lb g c v a m) buf) := by
  simp only [newWriteSame16, bind_eq_ok, pyAssert_eq_ok] at hnew
  obtain ⟨-, -, -, -, -, -, ho⟩ := hnew
  have ho := Except.ok.inj ho
  have hc : (o.sets sets).cls = .writeSame16 := by rw [sets_cls, ← ho]
  have el := attr_sets o sets "logical_block_address" none lba (by known ho)
  have em := attr_sets o sets "number_of_blocks" none n (by known ho)
  rw [hl] at el; rw [hm] at em
  have e := fun name v hm => attr_assigned (o := o) hs name v hm
  have e1 := e "wrprotect" p (by simp [same16Names]) (by known ho)
  have e2 := e "pbdata" pb (by simp [same16Names]) (by known ho)
  have e3 := e "lbdata" lb (by simp [same16Names]) (by known ho)
  have e4 := e "unmap" u (by simp [same16Names]) (by known ho)
  have hbuf : buf = (o.sets sets).buffer := by rw [sets_buffer, ← ho]
  rw [hbuf]
  refine execute_write L _ (.inr <| .inr <| .inr <| .inr <| .inr <| .inl hc) _ ?_
  rw [hc]
  have hflags : packDecl L (o.sets sets).attrs (.bits [.pad 1, .field "lbdata" 1 (some 0), .field "pbdata" 1 (some 0), .field "unmap" 1 (some 0), .pad 1,
      .field "wrprotect" 3 (some 0)]) = .ok [Spec.Options.sameFlags p u pb lb] := by
    rw [packDecl_bits]
    simp only [packBits, e1, e2, e3, e4, ok_bind, L.enc_ok 3 _ hp, L.enc_ok 1 _ hpb, L.enc_ok 1 _ hlb, L.enc_ok 1 _ hu, bitsWidth, BitDecl.width, le,
      Spec.Options.sameFlags]
    congr 2
    apply byte_mod
    omega
  fields [hflags,
    control_pack L _ c v hc1 hv (e _ _ (by simp [same16Names]) (by known ho)) (e _ _ (by simp [same16Names]) (by known ho)),
    group_pack L _ "group_number" g hg (e _ _ (by simp [same16Names]) (by known ho)), uint_pack L _ "logical_block_address" 8 a el ha, uint_pack L _ "number_of_blocks" 4 m em hm']
  simp [Spec.Options.writeSame16]

/-- The names UNMAP has for the options. -/
def unmapNames (g c v : Nat) : List (String × Nat) := [("GROUP_NUMBER", g), ("naca", c), ("vendor_specific", v)]

theorem newUnmap_new (L : Lib) (ranges : List (Int × Int)) (o : Obj) (h : newUnmap L ranges = .ok o) :
    ∃ bs : Bytes, (.ok ⟨.unmap, [("parameter_list_length", (bs.length : Int))], bs⟩ : Py Obj) = .ok o := by
  unfold newUnmap at h
  cases hb : unmapBlocks L ranges with
  | error e => rw [hb, err_bind] at h; cases h
  | ok blocks =>
    rw [hb, ok_bind] at h
    cases hh : unmapHeader L blocks.length with
    | error e => rw [hh, err_bind] at h; cases h
    | ok header => rw [hh, ok_bind] at h; exact ⟨header ++ blocks, h⟩

theorem newUnmap_shape (L : Lib) (ranges : List (Int × Int)) (o : Obj) (h : newUnmap L ranges = .ok o) :
    o.cls = .unmap ∧ o.attrs = [("parameter_list_length", (o.buffer.length : Int))] := by
  obtain ⟨bs, h⟩ := newUnmap_new L ranges o h
  rw [← Except.ok.inj h]
  exact ⟨rfl, rfl⟩

/-- **C75** for UNMAP: options are sent, the parameter list is the one of the constructor. -/
theorem C75_unmap (L : Lib) (ranges : List (Int × Int)) (o : Obj) (sets : List (String × Int)) (g c v m : Nat)
    (hnew : newUnmap L ranges = .ok o) (hg : g < 32) (hc1 : c < 2) (hv : v < 4) (hs : Assigned sets (unmapNames g c v))
    (hm : last sets "parameter_list_length" o.buffer.length = m) (hm' : m < 2 ^ 16) :
    (o.sets sets).execute L = .ok (.write (Spec.Options.unmap g c v m) o.buffer) := by
  obtain ⟨hc, ho⟩ := newUnmap_shape L ranges o hnew
  replace ho := ho.symm
  rw [← sets_cls o sets] at hc
  have em := attr_sets o sets "parameter_list_length" none o.buffer.length (by known ho)
  rw [hm] at em
  have e := fun name v hm => attr_assigned (o := o) hs name v hm
  rw [← sets_buffer o sets]
  refine execute_write L _ (.inr <| .inr <| .inr <| .inr <| .inr <| .inr hc) _ ?_
  rw [hc]
  fields [control_pack L _ c v hc1 hv (e _ _ (by simp [unmapNames]) (by known ho)) (e _ _ (by simp [unmapNames]) (by known ho)),
    group_pack L _ "GROUP_NUMBER" g hg (e _ _ (by simp [unmapNames]) (by known ho)), uint_pack L _ "parameter_list_length" 2 m em hm']
  simp [Spec.Options.unmap, zeros, List.replicate]

/-! ## Commands with an allocation length -/

theorem execute_alloc (L : Lib) (o : Obj) (h : o.cls = .inquiry ∨ o.cls = .readCapacity16 ∨ o.cls = .reportLuns ∨ o.cls = .rtpg) (cdb : Bytes) (a : Int)
    (hp : pack L o.attrs (.const [o.cls.op] :: o.cls.fields) = .ok cdb) (ha : attr o.attrs "allocation_length" none = .ok a) :
    o.execute L = .ok (.read cdb a) := by
  rcases h with h | h | h | h <;>
    simp only [Obj.execute, Obj.executeWith, h, Obj.datagram, Obj.prepared, Obj.packed, Cls.positional, Cls.resets, Bool.false_eq_true, reduceCtorEq, if_false, Obj.get, ha, ok_bind] <;> rw [h] at hp <;> rw [hp, ok_bind]

theorem flag_pack (L : Lib) (env : Attrs) (name : String) (v : Nat) (hv : v < 2) (h : attr env name (some 0) = .ok (v : Int)) :
    packDecl L env (.bits [.field name 1 (some 0), .pad 7]) = .ok [byte v] := by
  rw [packDecl_bits]
  simp only [packBits, h, ok_bind, L.enc_ok 1 _ hv, bitsWidth, BitDecl.width, le]
  congr 2
  apply byte_mod
  omega

/-- The control byte as an object assigned to `cmd.control`. -/
def controlNames (c v : Nat) : List (String × Nat) := [("naca", c), ("vendor_specific", v)]

/-- **C75** for INQUIRY: block and length of the answer asked for follow the assignments. -/
theorem C75_inquiry (L : Lib) (evpd page alloc : Int) (o : Obj) (sets : List (String × Int)) (ev pg al c v : Nat)
    (hnew : newInquiry evpd page alloc = .ok o) (hc1 : c < 2) (hv : v < 4) (hs : Assigned sets (controlNames c v))
    (h_ev : last sets "evpd" evpd = ev)
    (h_pg : last sets "page_code" page = pg)
    (h_al : last sets "allocation_length" alloc = al)
    (hv1 : ev < 2) (hv2 : pg < 2 ^ 8) (hv3 : al < 2 ^ 16) :
    (o.sets sets).execute L = .ok (.read (Spec.Options.inquiry ev pg al c v) al) := by
  have ho := Except.ok.inj hnew
  have hc : (o.sets sets).cls = .inquiry := by rw [sets_cls, ← ho]
  have e_ev := attr_sets o sets "evpd" (some 0) evpd (by known ho)
  rw [h_ev] at e_ev
  have e_pg := attr_sets o sets "page_code" none page (by known ho)
  rw [h_pg] at e_pg
  have e_al := attr_sets o sets "allocation_length" none alloc (by known ho)
  rw [h_al] at e_al
  have e := fun name v hm => attr_assigned (o := o) hs name v hm
  refine execute_alloc L _ (.inl hc) _ al ?_ e_al
  rw [hc]
  fields [flag_pack L _ "evpd" ev hv1 e_ev, uint_pack L _ "page_code" 1 pg e_pg hv2, uint_pack L _ "allocation_length" 2 al e_al hv3, control_pack L _ c v hc1 hv (e _ _ (by simp [controlNames]) (by known ho)) (e _ _ (by simp [controlNames]) (by known ho))]
  simp [Spec.Options.inquiry, be_one]

/-- **C75** for READ CAPACITY(10). -/
theorem C75_readCapacity10 (L : Lib) (lba pmi : Int) (o : Obj) (sets : List (String × Int)) (a pm c v : Nat)
    (hnew : newReadCapacity10 lba pmi = .ok o) (hc1 : c < 2) (hv : v < 4) (hs : Assigned sets (controlNames c v))
    (h_a : last sets "logical_block_address" lba = a)
    (h_pm : last sets "pmi" pmi = pm)
    (hv1 : a < 2 ^ 32) (hv2 : pm < 2) :
    (o.sets sets).execute L = .ok (.read (Spec.Options.readCapacity10 a pm c v) 8) := by
  have ho := Except.ok.inj hnew
  have hc : (o.sets sets).cls = .readCapacity10 := by rw [sets_cls, ← ho]
  have e_a := attr_sets o sets "logical_block_address" none lba (by known ho)
  rw [h_a] at e_a
  have e_pm := attr_sets o sets "pmi" (some 0) pmi (by known ho)
  rw [h_pm] at e_pm
  have e := fun name v hm => attr_assigned (o := o) hs name v hm
  simp only [Obj.execute, Obj.executeWith, hc, Obj.datagram, Obj.prepared, Obj.packed, Cls.positional, Cls.resets, Bool.false_eq_true, reduceCtorEq, if_false]
  have hp : pack L (o.sets sets).attrs (.const [Cls.op .readCapacity10] :: Cls.fields .readCapacity10) = .ok (Spec.Options.readCapacity10 a pm c v) := by
    fields [uint_pack L _ "logical_block_address" 4 a e_a hv1, flag_pack L _ "pmi" pm hv2 e_pm, control_pack L _ c v hc1 hv (e _ _ (by simp [controlNames]) (by known ho)) (e _ _ (by simp [controlNames]) (by known ho))]
    simp [Spec.Options.readCapacity10, zeros, List.replicate]
  rw [hp, ok_bind]

theorem action_pack (L : Lib) (env : Attrs) (h : attr env "service_action" (some 16) = .ok 16) :
    packDecl L env (.bits [.field "service_action" 5 (some 0x10), .pad 3]) = .ok [0x10] := by
  have := L.enc_ok 5 16 (by decide)
  rw [packDecl_bits]
  simp only [packBits, h, ok_bind, bitsWidth, BitDecl.width, le]
  simp only [Int.cast_ofNat_Int] at this
  rw [this]
  rfl

/-- **C75** for READ CAPACITY(16), unless the service action itself is changed. -/
theorem C75_readCapacity16 (L : Lib) (lba pmi : Int) (o : Obj) (sets : List (String × Int)) (a al pm c v : Nat)
    (hnew : newReadCapacity16 lba pmi = .ok o) (hc1 : c < 2) (hv : v < 4) (hs : Assigned sets (controlNames c v))
    (h_a : last sets "logical_block_address" lba = a)
    (h_al : last sets "allocation_length" 32 = al)
    (h_pm : last sets "pmi" pmi = pm)
    (hv1 : a < 2 ^ 64) (hv2 : al < 2 ^ 32) (hv3 : pm < 2) (hsa : last sets "service_action" 16 = 16) :
    (o.sets sets).execute L = .ok (.read (Spec.Options.readCapacity16 a al pm c v) al) := by
  have ho := Except.ok.inj hnew
  have hc : (o.sets sets).cls = .readCapacity16 := by rw [sets_cls, ← ho]
  have e_a := attr_sets o sets "logical_block_address" none lba (by known ho)
  rw [h_a] at e_a
  have e_al := attr_sets o sets "allocation_length" none 32 (by known ho)
  rw [h_al] at e_al
  have e_pm := attr_sets o sets "pmi" (some 0) pmi (by known ho)
  rw [h_pm] at e_pm
  have e := fun name v hm => attr_assigned (o := o) hs name v hm
  refine execute_alloc L _ (.inr <| .inl hc) _ al ?_ e_al
  rw [hc]
  fields [action_pack L _ (by rw [attr_sets_default o sets "service_action" 16 (by known ho), hsa]), uint_pack L _ "logical_block_address" 8 a e_a hv1, uint_pack L _ "allocation_length" 4 al e_al hv2,
    flag_pack L _ "pmi" pm hv3 e_pm, control_pack L _ c v hc1 hv (e _ _ (by simp [controlNames]) (by known ho)) (e _ _ (by simp [controlNames]) (by known ho))]
  simp [Spec.Options.readCapacity16]

/-- **C75** for REPORT LUNS. -/
theorem C75_reportLuns (L : Lib) (select alloc : Int) (o : Obj) (sets : List (String × Int)) (se al c v : Nat)
    (hnew : newReportLuns select alloc = .ok o) (hc1 : c < 2) (hv : v < 4) (hs : Assigned sets (controlNames c v))
    (h_se : last sets "select_report" select = se)
    (h_al : last sets "allocation_length" alloc = al)
    (hv1 : se < 2 ^ 8) (hv2 : al < 2 ^ 32) :
    (o.sets sets).execute L = .ok (.read (Spec.Options.reportLuns se al c v) al) := by
  have ho := Except.ok.inj hnew
  have hc : (o.sets sets).cls = .reportLuns := by rw [sets_cls, ← ho]
  have e_se := attr_sets o sets "select_report" none select (by known ho)
  rw [h_se] at e_se
  have e_al := attr_sets o sets "allocation_length" none alloc (by known ho)
  rw [h_al] at e_al
  have e := fun name v hm => attr_assigned (o := o) hs name v hm
  refine execute_alloc L _ (.inr <| .inr <| .inl hc) _ al ?_ e_al
  rw [hc]
  fields [uint_pack L _ "select_report" 1 se e_se hv1, uint_pack L _ "allocation_length" 4 al e_al hv2, control_pack L _ c v hc1 hv (e _ _ (by simp [controlNames]) (by known ho)) (e _ _ (by simp [controlNames]) (by known ho))]
  simp [Spec.Options.reportLuns, be_one, zeros, List.replicate]

theorem format_pack (L : Lib) (env : Attrs) (f : Nat) (hf : f < 8) (h : attr env "service_action" (some 10) = .ok 10)
    (h' : attr env "parameter_data_format" (some 0) = .ok (f : Int)) :
    packDecl L env (.bits [.field "service_action" 5 (some 10), .field "parameter_data_format" 3 (some 0)]) = .ok [byte (f * 32 + 0x0A)] := by
  have := L.enc_ok 5 10 (by decide)
  simp only [Int.cast_ofNat_Int] at this
  rw [packDecl_bits]
  simp only [packBits, h, h', ok_bind, bitsWidth, BitDecl.width, le, this, L.enc_ok 3 _ hf]
  congr 2
  apply byte_mod
  omega

/-- **C75** for REPORT TARGET PORT GROUPS, unless the service action itself is changed. -/
theorem C75_rtpg (L : Lib) (fmt alloc : Int) (o : Obj) (sets : List (String × Int)) (fm al c v : Nat)
    (hnew : newRtpg fmt alloc = .ok o) (hc1 : c < 2) (hv : v < 4) (hs : Assigned sets (controlNames c v))
    (h_fm : last sets "parameter_data_format" fmt = fm)
    (h_al : last sets "allocation_length" alloc = al)
    (hv1 : fm < 8) (hv2 : al < 2 ^ 32) (hsa : last sets "service_action" 10 = 10) :
    (o.sets sets).execute L = .ok (.read (Spec.Options.reportTargetPortGroups fm al c v) al) := by
  simp only [newRtpg, bind_eq_ok, pyAssert_eq_ok] at hnew
  obtain ⟨-, -, hnew⟩ := hnew
  have ho := Except.ok.inj hnew
  have hc : (o.sets sets).cls = .rtpg := by rw [sets_cls, ← ho]
  have e_fm := attr_sets o sets "parameter_data_format" (some 0) fmt (by known ho)
  rw [h_fm] at e_fm
  have e_al := attr_sets o sets "allocation_length" none alloc (by known ho)
  rw [h_al] at e_al
  have e := fun name v hm => attr_assigned (o := o) hs name v hm
  refine execute_alloc L _ (.inr <| .inr <| .inr hc) _ al ?_ e_al
  rw [hc]
  fields [format_pack L _ fm hv1 (by rw [attr_sets_default o sets "service_action" 10 (by known ho), hsa]) e_fm, uint_pack L _ "allocation_length" 4 al e_al hv2, control_pack L _ c v hc1 hv (e _ _ (by simp [controlNames]) (by known ho)) (e _ _ (by simp [controlNames]) (by known ho))]
  simp [Spec.Options.reportTargetPortGroups, zeros, List.replicate]

/-! ## READ(6) and WRITE(6): the address is split when the object is made -/

theorem pack6 (L : Lib) (env : Attrs) (op : UInt8) (opn : Nat) (a m c v : Nat) (ha : a < 2 ^ 21) (hm : m < 2 ^ 8) (hc : c < 2) (hv : v < 4)
    (h1 : attr env "logical_block_address__msb" none = .ok ((a / 2 ^ 16 : Nat) : Int))
    (h2 : attr env "logical_block_address__lsb" none = .ok ((a % 2 ^ 16 : Nat) : Int)) (h3 : attr env "transfer_length" none = .ok (m : Int))
    (h4 : attr env "naca" (some 0) = .ok (c : Int)) (h5 : attr env "vendor_specific" (some 0) = .ok (v : Int)) (f : Opts)
    (hf : f.naca = c ∧ f.vendor = v) :
    pack L env (.const [op] :: (fields6 opn).tail) = .ok (Spec.Options.cdb6 op f a m) := by
  have hb : packDecl L env (.bits [.field "logical_block_address__msb" 5 none, .pad 3]) = .ok [byte (a / 2 ^ 16)] := by
    rw [packDecl_bits]
    simp only [packBits, h1, ok_bind, L.enc_ok 5 (a / 2 ^ 16) (by omega), bitsWidth, BitDecl.width, le]
    congr 2
    apply byte_mod
    omega
  have hbe : be 3 a = byte (a / 2 ^ 16) :: be 2 (a % 2 ^ 16) := by
    simp only [be, List.cons.injEq, and_true, byte_eq_iff, byte_toNat]
    refine ⟨?_, ?_, ?_⟩ <;> simp only [Nat.reducePow] <;> omega
  fields [hb, uint_pack L env "logical_block_address__lsb" 2 _ h2 (by omega), uint_pack L env "transfer_length" 1 m h3 hm,
    control_pack L env c v hc hv h4 h5]
  simp [Spec.Options.cdb6, hbe, hf.1, hf.2, be_one]

theorem last_other (sets : List (String × Int)) (name : String) (v : Int) (h : ∀ p ∈ sets, p.1 ≠ name) : last sets name v = v := by
  induction sets generalizing v with
  | nil => rfl
  | cons p l ih => rw [last_cons, if_neg (h p (by simp))]; exact ih v fun q hq => h q (List.mem_cons_of_mem _ hq)

/-- **C75** for READ(6), as far as it goes: length and control byte follow the assignments, but the address stays the one given to the
constructor, whatever is assigned to `logical_block_address`.  (`__msb` and `__lsb` are left alone.) -/
theorem C75_read6_partial (L : Lib) (a : Nat) (n bs : Int) (o : Obj) (sets : List (String × Int)) (f : Opts) (m : Nat) (b : Int)
    (hnew : newRead6 a n bs = .ok o) (hf : f.Valid) (hs : Assigned sets (controlNames f.naca f.vendor))
    (hx : ∀ p ∈ sets, p.1 ≠ "logical_block_address__msb") (hy : ∀ p ∈ sets, p.1 ≠ "logical_block_address__lsb")
    (hm : last sets "transfer_length" n = m) (hb : last sets "block_size" bs = b) (hm' : m < 2 ^ 8) (h0 : m ≠ 0) (hb0 : b ≠ 0) :
    (o.sets sets).execute L = .ok (.read (Spec.Options.cdb6 0x08 f a m) (b * m)) := by
  simp only [newRead6, bind_eq_ok, pyAssert_eq_ok] at hnew
  obtain ⟨-, ha, -, -, ho⟩ := hnew
  have ho := Except.ok.inj ho
  have ha : (a : Int) < 2 ^ 21 := of_decide_eq_true ha
  have ha' : a < 2 ^ 21 := by omega
  have hc : (o.sets sets).cls = .read6 := by rw [sets_cls, ← ho]
  have e1 := attr_sets o sets "logical_block_address__msb" none ((a : Int) / 2 ^ 16) (by known ho)
  have e2 := attr_sets o sets "logical_block_address__lsb" none ((a : Int) % 2 ^ 16) (by known ho)
  have e3 := attr_sets o sets "transfer_length" none n (by known ho)
  have e4 := attr_sets o sets "block_size" none bs (by known ho)
  rw [last_other _ _ _ hx, show ((a : Int) / 2 ^ 16) = ((a / 2 ^ 16 : Nat) : Int) by omega] at e1
  rw [last_other _ _ _ hy, show ((a : Int) % 2 ^ 16) = ((a % 2 ^ 16 : Nat) : Int) by omega] at e2
  rw [hm] at e3; rw [hb] at e4
  have e := fun name v hm => attr_assigned (o := o) hs name v hm
  have hp := pack6 L (o.sets sets).attrs 0x08 0x08 a m f.naca f.vendor ha' hm' hf.2.2.2.2.2.2.2.1 hf.2.2.2.2.2.2.2.2 e1 e2 e3
    (e _ _ (by simp [controlNames]) (by known ho)) (e _ _ (by simp [controlNames]) (by known ho)) f ⟨rfl, rfl⟩
  have hne : b * (m : Int) ≠ 0 := Int.mul_ne_zero hb0 (by omega)
  simp only [Obj.execute, Obj.executeWith, hc, Obj.datagram, Obj.prepared, Obj.packed, Cls.positional, Cls.resets, Bool.false_eq_true, reduceCtorEq, if_false, Cls.fields, Cls.op, hp, Obj.get, e3, e4, ok_bind, hne]

/-- **C75** for WRITE(6), as far as it goes. -/
theorem C75_write6_partial (L : Lib) (a : Nat) (buf : Bytes) (bs k : Int) (o : Obj) (sets : List (String × Int)) (f : Opts) (m : Nat)
    (hnew : newWrite6 a buf bs = .ok o) (hk : (buf.length : Int) = k * bs) (hf : f.Valid) (hs : Assigned sets (controlNames f.naca f.vendor))
    (hx : ∀ p ∈ sets, p.1 ≠ "logical_block_address__msb") (hy : ∀ p ∈ sets, p.1 ≠ "logical_block_address__lsb")
    (hm : last sets "transfer_length" (if k = 256 then 0 else k) = m) (hm' : m < 2 ^ 8) :
    (o.sets sets).execute L = .ok (.write (Spec.Options.cdb6 0x0A f a m) buf) := by
  simp only [newWrite6, bind_eq_ok, pyAssert_eq_ok, pyDiv_eq_ok] at hnew
  obtain ⟨-, ha, -, -, -, -, tl, ⟨hbs, htl⟩, -, -, ho⟩ := hnew
  rw [hk, Int.mul_fdiv_cancel _ hbs] at htl
  subst htl
  have ho := Except.ok.inj ho
  have ha : (a : Int) < 2 ^ 21 := of_decide_eq_true ha
  have ha' : a < 2 ^ 21 := by omega
  have hc : (o.sets sets).cls = .write6 := by rw [sets_cls, ← ho]
  have e1 := attr_sets o sets "logical_block_address__msb" none ((a : Int) / 2 ^ 16) (by known ho)
  have e2 := attr_sets o sets "logical_block_address__lsb" none ((a : Int) % 2 ^ 16) (by known ho)
  have e3 := attr_sets o sets "transfer_length" none (if k = 256 then 0 else k) (by known ho)
  rw [last_other _ _ _ hx, show ((a : Int) / 2 ^ 16) = ((a / 2 ^ 16 : Nat) : Int) by omega] at e1
  rw [last_other _ _ _ hy, show ((a : Int) % 2 ^ 16) = ((a % 2 ^ 16 : Nat) : Int) by omega] at e2
  rw [hm] at e3
  have e := fun name v hm => attr_assigned (o := o) hs name v hm
  have hbuf : buf = (o.sets sets).buffer := by rw [sets_buffer, ← ho]
  rw [hbuf]
  refine execute_write L _ (.inl hc) _ ?_
  rw [hc]
  exact pack6 L (o.sets sets).attrs 0x0A 0x0A a m f.naca f.vendor ha' hm' hf.2.2.2.2.2.2.2.1 hf.2.2.2.2.2.2.2.2 e1 e2 e3
    (e _ _ (by simp [controlNames]) (by known ho)) (e _ _ (by simp [controlNames]) (by known ho)) f ⟨rfl, rfl⟩

/-- A READ(6) and a WRITE(6) given another address after they were made still go to the first one. -/
theorem C75_address_false (L : Lib) (a a' : Nat) (ha : a < 2 ^ 21) (buf : Bytes) (hbuf : buf.length = 512) :
    (∃ o, newRead6 a 1 512 = .ok o ∧ (o.set "logical_block_address" a').execute L = .ok (.read (Spec.Options.cdb6 0x08 {} a 1) 512)) ∧
    (∃ o, newWrite6 a buf 512 = .ok o ∧ (o.set "logical_block_address" a').execute L = .ok (.write (Spec.Options.cdb6 0x0A {} a 1) buf)) := by
  have hv : ({} : Opts).Valid := by decide
  have ha' : decide ((a : Int) < 2 ^ 21) = true := decide_eq_true (by omega)
  constructor
  · refine ⟨_, by simp only [newRead6, pyAssert_bind, ha', if_true]; rfl, ?_⟩
    exact C75_read6_partial L a 1 512 _ [("logical_block_address", (a' : Int))] {} 1 512
      (by simp only [newRead6, pyAssert_bind, ha', if_true]; rfl) hv (by intro p hp; simp [controlNames] at hp; rcases hp with rfl | rfl <;> simp [last])
      (by simp) (by simp) (by simp [last]) (by simp [last]) (by omega) (by omega) (by omega)
  · refine ⟨_, by simp only [newWrite6, pyAssert_bind, ha', if_true, hbuf]; rfl, ?_⟩
    exact C75_write6_partial L a buf 512 1 _ [("logical_block_address", (a' : Int))] {} 1
      (by simp only [newWrite6, pyAssert_bind, ha', if_true, hbuf]; rfl) (by rw [hbuf]; rfl) hv
      (by intro p hp; simp [controlNames] at hp; rcases hp with rfl | rfl <;> simp [last]) (by simp) (by simp) (by simp [last]) (by omega)

/-! ## What has no effect -/

/-- The attributes a declaration takes its values from. -/
def declNames : Decl → List String
  | .uint name _ => [name]
  | .bits l => l.filterMap fun | .field name _ _ => some name | .pad _ => none
  | .pad _ => []
  | .const _ => []

theorem attr_other (env : Attrs) (name n : String) (v : Int) (d : Option Int) (h : n ≠ name) : attr ((n, v) :: env) name d = attr env name d := by
  have : (name == n) = false := by simp [Ne.symm h]
  simp only [attr, List.lookup, this]

theorem packBits_other (L : Lib) (env : Attrs) (n : String) (v : Int) (l : List BitDecl)
    (h : n ∉ l.filterMap fun | .field name _ _ => some name | .pad _ => none) : packBits L ((n, v) :: env) l = packBits L env l := by
  induction l with
  | nil => rfl
  | cons d r ih =>
    cases d with
    | pad w => simp only [packBits, ih (by simpa using h)]
    | field name w d =>
      simp only [List.filterMap_cons, List.mem_cons, not_or] at h
      simp only [packBits, ih h.2, attr_other env name n v d h.1]

theorem pack_other (L : Lib) (env : Attrs) (n : String) (v : Int) (l : List Decl) (h : n ∉ l.flatMap declNames) :
    pack L ((n, v) :: env) l = pack L env l := by
  induction l with
  | nil => rfl
  | cons d r ih =>
    simp only [List.flatMap_cons, List.mem_append, not_or] at h
    have hd : packDecl L ((n, v) :: env) d = packDecl L env d := by
      cases d with
      | uint name k => simp only [declNames, List.mem_singleton] at h; simp only [packDecl, attr_other env name n v none h.1]
      | bits l => simp only [packDecl, packBits_other L env n v l h.1]
      | pad k => rfl
      | const bs => rfl
    simp only [pack, hd, ih h.2]

/-- The attributes the positional fields take their values from. -/
def placeNames (l : List (String × Ref × Source)) : List String :=
  l.filterMap fun p => match p.2.2 with | .attr _ => some p.1 | .fixed _ => none

theorem placed_congr (e e' : Attrs) (l : List (String × Ref × Source))
    (h : ∀ name ∈ placeNames l, ∀ d, attr e name d = attr e' name d) : placed e l = placed e' l := by
  induction l with
  | nil => rfl
  | cons p l ih =>
    obtain ⟨name, r, s⟩ := p
    cases s with
    | fixed v => simp only [placed, ih fun n hn => h n (by simpa [placeNames] using hn)]
    | attr d =>
      have h1 := h name (by simp [placeNames]) d
      simp only [placed, h1, ih fun n hn => h n (by simp [placeNames] at hn ⊢; exact .inr hn)]

/-- The attributes `execute` of a class reads. -/
def Cls.reads : Cls → List String
  | .read6 | .read10 | .read12 | .read16 => ["block_size", "transfer_length"]
  | .compareAndWrite => ["logical_block_address", "number_of_logical_blocks"]
  | .inquiry | .readCapacity16 | .reportLuns | .rtpg | .logSense | .receiveCopy | .receiveDiagnostic | .prIn => ["allocation_length"]
  | _ => []

/-- The attributes a class declares fields for, apart from a control byte that is replaced before packing. -/
def Cls.names (c : Cls) : List String :=
  if c.positional then (placeNames c.places).filter fun n => !(c.resets && (n == "naca" || n == "vendor_specific"))
  else c.fields.flatMap declNames

/-- An assignment to any other name is ignored without complaint. -/
theorem C75_ignored (L : Lib) (o : Obj) (name : String) (v : Int) (h1 : name ∉ o.cls.names) (h2 : name ∉ o.cls.reads) :
    (o.set name v).execute L = o.execute L := by
  have hd : (o.set name v).datagram L = o.datagram L := by
    have hc : (o.set name v).cls = o.cls := rfl
    cases hp : o.cls.positional with
    | false =>
      have hr : o.cls.resets = false := by cases hcls : o.cls <;> simp_all [Cls.positional, Cls.resets]
      simp only [Cls.names, hp, Bool.false_eq_true, if_false] at h1
      simp only [Obj.datagram, Obj.prepared, hc, hr, Bool.false_eq_true, if_false, Obj.packed, hp]
      exact pack_other L o.attrs name v _ (by simpa [declNames] using h1)
    | true =>
      have key : ∀ n ∈ placeNames o.cls.places, ∀ d, attr (o.set name v).prepared.attrs n d = attr o.prepared.attrs n d := by
        intro n hn d
        simp only [Obj.prepared, hc]
        cases hr : o.cls.resets with
        | false =>
          refine attr_other o.attrs n name v d ?_
          rintro rfl
          exact h1 (by simp [Cls.names, hp, hr, hn])
        | true =>
          simp only [if_true, Obj.set]
          by_cases a : n = "naca"
          · subst a; simp [attr, List.lookup]
          · by_cases b : n = "vendor_specific"
            · subst b; simp [attr, List.lookup]
            · rw [attr_other _ n _ _ _ (Ne.symm a), attr_other _ n _ _ _ (Ne.symm b), attr_other _ n _ _ _ (Ne.symm a),
                attr_other _ n _ _ _ (Ne.symm b)]
              refine attr_other o.attrs n name v d ?_
              rintro rfl
              exact h1 (by simp [Cls.names, hp, hr, hn, a, b])
      have hpc : (o.set name v).prepared.cls = o.cls := by simp only [Obj.prepared]; split <;> rfl
      have hpc' : o.prepared.cls = o.cls := by simp only [Obj.prepared]; split <;> rfl
      simp only [Obj.datagram, Obj.packed, hpc, hpc', hp, if_true, placed_congr _ _ _ key]
  have hg : ∀ x, x ∈ o.cls.reads → (o.set name v).get x = o.get x := fun x hx =>
    attr_other o.attrs x name v none fun e => h2 (e ▸ hx)
  have hc : (o.set name v).cls = o.cls := rfl
  have hb : (o.set name v).buffer = o.buffer := rfl
  simp only [Obj.execute, hd]
  cases hcls : o.cls <;> simp only [hcls] at hg hc <;> simp only [Obj.executeWith, hcls, hc, hb]
  all_goals
    simp only [Cls.reads, List.mem_cons, List.not_mem_nil, or_false, forall_eq_or_imp, forall_eq] at hg
    simp only [hg]

theorem new_cls_read16 {lba n bs : Int} {o : Obj} (h : newRead16 lba n bs = .ok o) : o.cls = .read16 := by
  simp only [newRead16, bind_eq_ok] at h
  obtain ⟨-, -, -, -, ho⟩ := h
  rw [← Except.ok.inj ho]

theorem new_cls_read12 {lba n bs : Int} {o : Obj} (h : newRead12 lba n bs = .ok o) : o.cls = .read12 := by
  simp only [newRead12, bind_eq_ok] at h
  obtain ⟨-, -, -, -, ho⟩ := h
  rw [← Except.ok.inj ho]

theorem new_cls_same10 {lba n bs : Int} {buf : Bytes} {o : Obj} (h : newWriteSame10 lba buf n bs = .ok o) : o.cls = .writeSame10 := by
  simp only [newWriteSame10, bind_eq_ok] at h
  obtain ⟨-, -, -, -, -, -, ho⟩ := h
  rw [← Except.ok.inj ho]

/-- The option of READ(10) called `rdprotect` cannot be used with READ(12) and READ(16): an assignment to that name is ignored, as are
`group_number` and `fua_nv` of READ(12) and `unmap` of WRITE SAME(10). -/
theorem C75_names_false (L : Lib) (v : Int) :
    (∀ lba n bs o, newRead16 lba n bs = .ok o → (o.set "rdprotect" v).execute L = o.execute L) ∧
    (∀ lba n bs o, newRead12 lba n bs = .ok o → ∀ name ∈ ["rdprotect", "group_number", "fua_nv"], (o.set name v).execute L = o.execute L) ∧
    (∀ lba buf n bs o, newWriteSame10 lba buf n bs = .ok o → (o.set "unmap" v).execute L = o.execute L) := by
  refine ⟨?_, ?_, ?_⟩
  · intro lba n bs o h
    apply C75_ignored <;> rw [new_cls_read16 h] <;> simp [Cls.names, Cls.positional, Cls.resets, Cls.fields, Cls.reads, read16Fields, declNames, Cdb.control]
  · intro lba n bs o h name hn
    simp only [List.mem_cons, List.not_mem_nil, or_false] at hn
    rcases hn with rfl | rfl | rfl <;>
      (apply C75_ignored <;> rw [new_cls_read12 h] <;> simp [Cls.names, Cls.positional, Cls.resets, Cls.fields, Cls.reads, read12Fields, declNames, Cdb.control])
  · intro lba buf n bs o h
    apply C75_ignored <;> rw [new_cls_same10 h] <;> simp [Cls.names, Cls.positional, Cls.resets, Cls.fields, Cls.reads, writeSame10Fields, groupNumber, declNames, Cdb.control]

/-! ## The buffer of a write -/

/-- Another buffer assigned to a command that writes is sent with the block of the first one; RESERVE(6) and RELEASE(6) send none. -/
theorem C75_buffer (L : Lib) (o : Obj) (bs : Bytes) (cdb data : Bytes) (h : o.execute L = .ok (.write cdb data))
    (h6 : o.cls ≠ .reserve6 ∧ o.cls ≠ .release6) :
    (o.setBuffer bs).execute L = .ok (.write cdb bs) := by
  have hd : (o.setBuffer bs).datagram L = o.datagram L := by
    cases hr : o.cls.resets <;> simp only [Obj.datagram, Obj.prepared, Obj.setBuffer, hr] <;> rfl
  have hc : (o.setBuffer bs).cls = o.cls := rfl
  have hb : (o.setBuffer bs).buffer = bs := rfl
  have hg : ∀ x, (o.setBuffer bs).get x = o.get x := fun x => rfl
  simp only [Obj.execute, Obj.executeWith, hc, hd, hb, hg] at h ⊢
  cases hcls : o.cls <;> simp only [hcls, bind_eq_ok] at h ⊢
  case reserve6 => exact absurd hcls h6.1
  case release6 => exact absurd hcls h6.2
  case compareAndWrite =>
    obtain ⟨a, h1, u, h2, n, h3, w, h4, c, h5, h6⟩ := h
    simp only [Except.ok.injEq, Req.write.injEq] at h6
    exact ⟨a, h1, u, h2, n, h3, w, h4, c, h5, by rw [h6.1]⟩
  all_goals first
    | (obtain ⟨c, h5, h6⟩ := h
       simp only [Except.ok.injEq, Req.write.injEq, reduceCtorEq] at h6
       exact ⟨c, h5, by rw [h6.1]⟩)
    | (obtain ⟨c, h5, h6⟩ := h
       simp only [Except.ok.injEq, reduceCtorEq] at h6; done)
    | (obtain ⟨c, h5, n, h3, h6⟩ := h
       simp only [Except.ok.injEq, reduceCtorEq] at h6; done)
    | (obtain ⟨c, h5, n, h3, m, h4, h6⟩ := h
       simp only [Except.ok.injEq, reduceCtorEq] at h6)

/-- A WRITE(10) of one block that is then given a buffer of two blocks tells the device to take one. -/
theorem C75_buffer_false (L : Lib) (a : Nat) (ha : a < 2 ^ 32) (one two : Bytes) (h1 : one.length = 512) :
    ∃ o, newWrite10 a one 512 = .ok o ∧ (o.setBuffer two).execute L = .ok (.write (Spec.Options.cdb10 0x2A {} a 1) two) := by
  have ha' : decide ((a : Int) < 2 ^ 32) = true := decide_eq_true (by omega)
  have hnew : ∃ o, newWrite10 a one 512 = .ok o ∧ o.cls = .write10 := by
    refine ⟨⟨.write10, [("transfer_length", 1), ("block_size", 512), ("logical_block_address", a)], one⟩, ?_, rfl⟩
    simp only [newWrite10, h1, pyAssert_bind, ha']
    rfl
  obtain ⟨o, ho, hcl⟩ := hnew
  refine ⟨o, ho, ?_⟩
  have hv : ({} : Opts).Valid := by decide
  have := C75_write10 L a one 512 1 o [] {} a 1 ho (by rw [h1]; rfl) hv rfl
    (by intro p hp; simp [writeNames] at hp; rcases hp with rfl | rfl | rfl | rfl | rfl | rfl | rfl <;> rfl) rfl rfl ha (by omega)
  exact C75_buffer L _ two _ one this (by simp [hcl])

/-! ## Examples -/

/-- `cmd = Write16Command(7, 512 bytes); cmd.fua = 1; cmd.group_number = 9`. -/
example (L : Lib) : ((newWrite16 7 (List.replicate 512 0xAA) 512) >>= fun o => (o.sets [("fua", 1), ("group_number", 3), ("group_number", 9)]).execute L) =
    .ok (.write ([0x8A, 0x08] ++ be 8 7 ++ be 4 1 ++ [9, 0]) (List.replicate 512 0xAA)) := by
  have hl : (List.replicate 512 (0xAA : UInt8)).length = 512 := List.length_replicate
  have hnew : ∃ o, newWrite16 7 (List.replicate 512 0xAA) 512 = .ok o := by
    refine ⟨⟨.write16, [("transfer_length", 1), ("block_size", 512), ("logical_block_address", 7)], List.replicate 512 0xAA⟩, ?_⟩
    simp only [newWrite16, hl, pyAssert_bind]
    rfl
  obtain ⟨o, ho⟩ := hnew
  rw [ho, ok_bind]
  exact C75_write16 L 7 _ 512 1 o _ { fua := 1, group := 9 } 7 1 ho (by rw [hl]; rfl) (by decide) rfl rfl
    (by intro p hp; simp [writeNames] at hp; rcases hp with rfl | rfl | rfl | rfl | rfl | rfl | rfl <;> rfl) rfl rfl (by omega) (by omega)

/-- `cmd = Read10Command(0, 1); cmd.transfer_length = 3; cmd.dpo = 1` asks for 1536 bytes. -/
example (L : Lib) : ((newRead10 0 1 512) >>= fun o => (o.sets [("transfer_length", 3), ("dpo", 1)]).execute L) =
    .ok (.read ([0x28, 0x10, 0, 0, 0, 0, 0, 0, 3, 0]) 1536) := by
  exact C75_read10 L 0 1 512 _ [("transfer_length", 3), ("dpo", 1)] { dpo := 1 } 0 3 512 rfl (by decide) rfl
    (by intro p hp; simp [read10Names] at hp; rcases hp with rfl | rfl | rfl | rfl | rfl | rfl | rfl <;> rfl) rfl rfl rfl (by omega) (by omega)

end Verif.Options
