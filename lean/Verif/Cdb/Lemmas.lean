import Verif.Cdb.Commands
import Verif.Spec.Cdb

/-! Helper lemmas for the command proofs. -/

namespace Verif

@[simp] theorem ok_bind {α β : Type} (a : α) (f : α → Py β) : ((Except.ok a : Py α) >>= f) = f a := rfl
@[simp] theorem err_bind {α β : Type} (e : PyErr) (f : α → Py β) :
    ((Except.error e : Py α) >>= f) = Except.error e := rfl

theorem Lib.enc_int (L : Lib) {w : Nat} {v : Int} (h0 : 0 ≤ v) (h : v < 2 ^ w) : L.enc w v = .ok v.toNat := by
  have h1 := L.enc_ok w v.toNat (by
    have : ((v.toNat : Nat) : Int) < ((2 ^ w : Nat) : Int) := by
      rw [Int.toNat_of_nonneg h0]; push_cast; exact h
    exact_mod_cast this)
  rwa [Int.toNat_of_nonneg h0] at h1

@[simp] theorem Lib.enc_zero (L : Lib) (w : Nat) : L.enc w 0 = .ok 0 := by
  have := L.enc_ok w 0 (Nat.pow_pos (by decide))
  simpa using this

theorem pyAssert_bind {β : Type} (c : Bool) (f : Unit → Py β) :
    (pyAssert c >>= f) = if c then f () else .error .assertion := by
  cases c <;> rfl

theorem bind_eq_ok {α β : Type} {x : Py α} {f : α → Py β} {b : β} :
    (x >>= f) = .ok b ↔ ∃ a, x = .ok a ∧ f a = .ok b := by
  cases x <;> simp

theorem packUInt_ok {n : Nat} {v : Int} (h0 : 0 ≤ v) (h : v < 256 ^ n) : packUInt n v = .ok (be n v.toNat) := by
  simp [packUInt, h0, h]

theorem packUInt_eq_ok {n : Nat} {v : Int} {bs : Bytes} :
    packUInt n v = .ok bs ↔ (0 ≤ v ∧ v < 256 ^ n) ∧ be n v.toNat = bs := by
  unfold packUInt
  split
  · rename_i h; simp [h]
  · rename_i h; simp [h]

end Verif

namespace Verif

theorem packDecl_uint (L : Lib) (env : Attrs) (name : String) (n : Nat) :
    packDecl L env (.uint name n) = attr env name none >>= packUInt n := rfl
theorem packDecl_bits (L : Lib) (env : Attrs) (l : List BitDecl) :
    packDecl L env (.bits l) = packBits L env l >>= fun x => .ok (le (bitsWidth l / 8) x) := rfl
theorem packDecl_pad (L : Lib) (env : Attrs) (n : Nat) : packDecl L env (.pad n) = .ok (zeros n) := rfl

theorem pyAssert_eq_ok {c : Bool} {u : Unit} : pyAssert c = .ok u ↔ c = true := by
  cases c <;> simp [pyAssert]

end Verif

namespace Verif.Cdb

theorem be_one (v : Nat) : be 1 v = [byte v] := by simp [be]

/-- Evaluate the packing of a concrete declaration. -/
macro "cdb_iff" "[" ls:Lean.Parser.Tactic.simpLemma,* "]" : tactic => `(tactic| (
  simp only [$ls,*]
  simp [bind_eq_ok, pyAssert_eq_ok, pack, packDecl_pad, opcode, control, List.lookup, Lib.enc_int,
    packDecl_uint, packDecl_bits, attr, packUInt_eq_ok, packBits, bitsWidth, BitDecl.width, le, and_assoc,
    eq_comm (b := Req.read _ _), eq_comm (b := Req.write _ _), zeros, List.replicate, be_one,
    Spec.Cdb.cdb6, Spec.Cdb.cdb10, Spec.Cdb.cdb12, Spec.Cdb.cdb16, writeFlags, groupNumber]
  try (intros; constructor <;> intro h <;> simp_all)))

theorem read10_iff (L : Lib) (lba n bs : Int) (r : Req) :
    read10 L lba n bs = .ok r ↔ (0 ≤ lba ∧ lba < 2 ^ 32) ∧ (0 ≤ n ∧ n < 2 ^ 16) ∧
      r = .read (Spec.Cdb.read10 lba.toNat n.toNat) (bs * n) := by
  cdb_iff [read10, read10Fields, Spec.Cdb.read10]

theorem read12_iff (L : Lib) (lba n bs : Int) (r : Req) :
    read12 L lba n bs = .ok r ↔ (0 ≤ lba ∧ lba < 2 ^ 32) ∧ (0 ≤ n ∧ n < 2 ^ 32) ∧
      r = .read (Spec.Cdb.read12 lba.toNat n.toNat) (bs * n) := by
  cdb_iff [read12, read12Fields, Spec.Cdb.read12]

theorem read16_iff (L : Lib) (lba n bs : Int) (r : Req) :
    read16 L lba n bs = .ok r ↔ (0 ≤ lba ∧ lba < 2 ^ 64) ∧ (0 ≤ n ∧ n < 2 ^ 32) ∧
      r = .read (Spec.Cdb.read16 lba.toNat n.toNat) (bs * n) := by
  cdb_iff [read16, read16Fields, Spec.Cdb.read16]

theorem cdb6_aux (L : Lib) (op : Nat) (hop : op < 256) (lba n : Int) (bs : Bytes) :
    pack L [("logical_block_address__msb", lba / 2 ^ 16), ("logical_block_address__lsb", lba % 2 ^ 16),
      ("transfer_length", n)] (fields6 op) = .ok bs ↔
    (0 ≤ n ∧ n < 2 ^ 8) ∧ ∃ m, L.enc 5 (lba / 2 ^ 16) = .ok m ∧
      bs = [byte op, byte m] ++ be 2 (lba % 2 ^ 16).toNat ++ [byte n.toNat, 0] := by
  have e1 : op &&& 0x1f = op % 32 := Nat.and_two_pow_sub_one_eq_mod op 5
  have e2 : op >>> 5 = op / 32 := Nat.shiftRight_eq_div_pow op 5
  have hl : 0 ≤ lba % 65536 ∧ lba % 65536 < 65536 := by omega
  have g1 : L.enc 5 (op % 32 : Int) = .ok (op % 32) := by
    have := L.enc_ok 5 (op % 32) (by omega); simpa using this
  have g2 : L.enc 3 (op / 32 : Int) = .ok (op / 32) := by
    have := L.enc_ok 3 (op / 32) (by omega); simpa using this
  have g3 : (op % 32 + op / 32 * 32) % 256 = op := by omega
  simp [fields6, bind_eq_ok, pack, opcode, control, List.lookup, Lib.enc_int,
    packDecl_uint, packDecl_bits, attr, packUInt_eq_ok, packBits, bitsWidth, BitDecl.width, le, and_assoc, e1, e2,
    g1, g2, g3, hl, be_one]
  constructor
  · rintro ⟨m, h1, h2, h3, rfl⟩
    have := L.enc_lt _ _ _ h1
    exact ⟨h2, h3, m, h1, by simp; rw [byte_eq_iff]; simp⟩
  · rintro ⟨h2, h3, m, h1, rfl⟩
    exact ⟨m, h1, h2, h3, by simp; rw [byte_eq_iff]; simp⟩

/-- The encoding of the split address is the 3-byte address. -/
theorem cdb6_bytes (lba : Int) (h : 0 ≤ lba ∧ lba < 2 ^ 21) :
    byte (lba / 2 ^ 16).toNat :: be 2 (lba % 2 ^ 16).toNat = be 3 lba.toNat := by
  obtain ⟨k, rfl⟩ := Int.eq_ofNat_of_zero_le h.1
  have h1 : ((k : Int) / 2 ^ 16).toNat = k / 2 ^ 16 := by omega
  have h2 : ((k : Int) % 2 ^ 16).toNat = k % 2 ^ 16 := by omega
  rw [h1, h2]
  simp only [be, Int.toNat_natCast, List.cons.injEq, and_true, byte_eq_iff, byte_toNat]
  refine ⟨?_, ?_, ?_⟩ <;> simp only [Nat.reducePow] <;> omega

theorem read6_iff (L : Lib) (lba n bs : Int) (r : Req) :
    read6 L lba n bs = .ok r ↔ lba < 2 ^ 21 ∧ (0 ≤ n ∧ n < 2 ^ 8) ∧ ∃ m, L.enc 5 (lba / 2 ^ 16) = .ok m ∧
      r = .read ([0x08, byte m] ++ be 2 (lba % 2 ^ 16).toNat ++ [byte n.toNat, 0])
        (if bs * n = 0 then 256 * 512 else bs * n) := by
  simp only [read6, bind_eq_ok, pyAssert_eq_ok, cdb6_aux L 0x08 (by decide)]
  constructor
  · rintro ⟨_, h1, _, _, _, ⟨h3, m, h4, rfl⟩, h5⟩
    cases h5
    exact ⟨by simpa using h1, h3, m, h4, rfl⟩
  · rintro ⟨h1, h3, m, h4, rfl⟩
    exact ⟨(), by simpa using h1, (), by simpa using h3.2, _, ⟨h3, m, h4, rfl⟩, rfl⟩

/-- `len % bs == 0` together with a fact about `len // bs`. -/
theorem whole_iff {a b : Int} {P : Int → Prop} (hb : b ≠ 0) :
    (Int.fmod a b = 0 ∧ P (Int.fdiv a b)) ↔ ∃ k, a = k * b ∧ P k := by
  constructor
  · rintro ⟨h, hp⟩
    refine ⟨_, ?_, hp⟩
    have := Int.fdiv_mul_add_fmod a b
    omega
  · rintro ⟨k, rfl, hp⟩
    rw [Int.mul_fdiv_cancel _ hb]
    exact ⟨Int.mul_fmod_left k b, hp⟩

theorem pyDiv_eq_ok {a b q : Int} : pyDiv a b = .ok q ↔ b ≠ 0 ∧ Int.fdiv a b = q := by
  unfold pyDiv; split <;> simp_all

theorem pyMod_eq_ok {a b q : Int} : pyMod a b = .ok q ↔ b ≠ 0 ∧ Int.fmod a b = q := by
  unfold pyMod; split <;> simp_all

theorem write6_iff (L : Lib) (lba : Int) (buf : Bytes) (bs : Int) (r : Req) :
    write6 L lba buf bs = .ok r ↔ lba < 2 ^ 21 ∧ bs ≠ 0 ∧ ∃ k : Int, (buf.length : Int) = k * bs ∧
      (0 < k ∧ k ≤ 256) ∧ ∃ m, L.enc 5 (lba / 2 ^ 16) = .ok m ∧
      r = .write ([0x0A, byte m] ++ be 2 (lba % 2 ^ 16).toNat ++ [byte k.toNat, 0]) buf := by
  have hb : ∀ k : Int, 0 < k ∧ k ≤ 256 → byte (if k = 256 then (0 : Int) else k).toNat = byte k.toNat := by
    intro k hk
    rw [byte_eq_iff]
    split
    · rename_i h; subst h; rfl
    · rfl
  simp only [write6, bind_eq_ok, pyAssert_eq_ok, cdb6_aux L 0x0A (by decide), pyDiv_eq_ok, pyMod_eq_ok]
  constructor
  · rintro ⟨_, h1, x, ⟨hb0, h2⟩, _, h3, q, ⟨_, h4⟩, _, h5, _, ⟨h6, m, h7, rfl⟩, h8⟩
    cases h8
    have h3 : x = 0 := by simpa using h3
    have h5 : 0 < q ∧ q ≤ 256 := by simpa using h5
    obtain ⟨k, hk, rfl⟩ := (whole_iff (P := fun k => k = q) hb0).1 ⟨h2.trans h3, h4⟩
    refine ⟨by simpa using h1, hb0, k, hk, h5, m, h7, ?_⟩
    rw [hb k h5]
    rfl
  · rintro ⟨h1, hb0, k, hk, h5, m, h7, rfl⟩
    obtain ⟨h2, h4⟩ := (whole_iff (P := fun q => q = k) hb0).2 ⟨k, hk, rfl⟩
    refine ⟨(), by simpa using h1, 0, ⟨hb0, h2⟩, (), by simp, k, ⟨hb0, h4⟩, (), by simpa using h5, _,
      ⟨by split <;> omega, m, h7, rfl⟩, ?_⟩
    rw [hb k h5]
    rfl

/-- The common shape of WRITE(10/12/16). -/
theorem write_shape {buf : Bytes} {bs : Int} {r : Req} {bound : Bool} {lim : Int → Bool}
    {P : Int → Py Bytes} :
    (do let tl ← pyDiv buf.length bs
        let m ← pyMod buf.length bs
        pyAssert (m = 0)
        pyAssert bound
        pyAssert (lim tl)
        let cdb ← P tl
        .ok (.write cdb buf)) = (.ok r : Py Req) ↔
    bs ≠ 0 ∧ bound = true ∧ ∃ k : Int, (buf.length : Int) = k * bs ∧ lim k = true ∧ ∃ cdb, P k = .ok cdb ∧ r = .write cdb buf := by
  simp only [bind_eq_ok, pyAssert_eq_ok, pyDiv_eq_ok, pyMod_eq_ok]
  constructor
  · rintro ⟨q, ⟨hb0, h4⟩, x, ⟨_, h2⟩, _, h3, _, h5, _, h6, cdb, h7, h8⟩
    cases h8
    have h3 : x = 0 := by simpa using h3
    obtain ⟨k, hk, rfl⟩ := (whole_iff (P := fun k => k = q) hb0).1 ⟨h2.trans h3, h4⟩
    exact ⟨hb0, h5, k, hk, h6, cdb, h7, rfl⟩
  · rintro ⟨hb0, h5, k, hk, h6, cdb, h7, rfl⟩
    obtain ⟨h2, h4⟩ := (whole_iff (P := fun q => q = k) hb0).2 ⟨k, hk, rfl⟩
    exact ⟨k, ⟨hb0, h4⟩, 0, ⟨hb0, h2⟩, (), by simp, (), h5, (), h6, cdb, h7, rfl⟩

theorem write10_cdb (L : Lib) (lba n : Int) (bs : Bytes) :
    pack L [("logical_block_address", lba), ("transfer_length", n)] write10Fields = .ok bs ↔
      (0 ≤ lba ∧ lba < 2 ^ 32) ∧ (0 ≤ n ∧ n < 2 ^ 16) ∧ Spec.Cdb.write10 lba.toNat n.toNat = bs := by
  cdb_iff [write10Fields, Spec.Cdb.write10]

theorem write12_cdb (L : Lib) (lba n : Int) (bs : Bytes) :
    pack L [("logical_block_address", lba), ("transfer_length", n)] write12Fields = .ok bs ↔
      (0 ≤ lba ∧ lba < 2 ^ 32) ∧ (0 ≤ n ∧ n < 2 ^ 32) ∧ Spec.Cdb.write12 lba.toNat n.toNat = bs := by
  cdb_iff [write12Fields, Spec.Cdb.write12]

theorem write16_cdb (L : Lib) (lba n : Int) (bs : Bytes) :
    pack L [("logical_block_address", lba), ("transfer_length", n)] write16Fields = .ok bs ↔
      (0 ≤ lba ∧ lba < 2 ^ 64) ∧ (0 ≤ n ∧ n < 2 ^ 32) ∧ Spec.Cdb.write16 lba.toNat n.toNat = bs := by
  cdb_iff [write16Fields, Spec.Cdb.write16]

theorem write10_iff (L : Lib) (lba : Int) (buf : Bytes) (bs : Int) (r : Req) :
    write10 L lba buf bs = .ok r ↔ (0 ≤ lba ∧ lba < 2 ^ 32) ∧ bs ≠ 0 ∧ ∃ k : Int, (buf.length : Int) = k * bs ∧
      (0 ≤ k ∧ k < 2 ^ 16) ∧ r = .write (Spec.Cdb.write10 lba.toNat k.toNat) buf := by
  unfold write10
  rw [write_shape (P := fun tl => pack L [("logical_block_address", lba), ("transfer_length", tl)] write10Fields)
    (lim := fun tl => 0 ≤ tl ∧ tl < 2 ^ 16) (bound := lba < 2 ^ 32)]
  simp only [write10_cdb]
  constructor
  · rintro ⟨h1, _, k, h3, h4, _, ⟨h5, h6, rfl⟩, rfl⟩
    exact ⟨h5, h1, k, h3, h6, rfl⟩
  · rintro ⟨h5, h1, k, h3, h6, rfl⟩
    exact ⟨h1, by simpa using h5.2, k, h3, by simpa using h6, _, ⟨h5, h6, rfl⟩, rfl⟩

theorem write12_iff (L : Lib) (lba : Int) (buf : Bytes) (bs : Int) (r : Req) :
    write12 L lba buf bs = .ok r ↔ (0 ≤ lba ∧ lba < 2 ^ 32) ∧ bs ≠ 0 ∧ ∃ k : Int, (buf.length : Int) = k * bs ∧
      (0 < k ∧ k < 2 ^ 32) ∧ r = .write (Spec.Cdb.write12 lba.toNat k.toNat) buf := by
  unfold write12
  rw [write_shape (P := fun tl => pack L [("logical_block_address", lba), ("transfer_length", tl)] write12Fields)
    (lim := fun tl => 0 < tl ∧ tl < 2 ^ 32) (bound := lba < 2 ^ 32)]
  simp only [write12_cdb]
  constructor
  · rintro ⟨h1, _, k, h3, h4, _, ⟨h5, h6, rfl⟩, rfl⟩
    exact ⟨h5, h1, k, h3, by simpa using h4, rfl⟩
  · rintro ⟨h5, h1, k, h3, h6, rfl⟩
    exact ⟨h1, by simpa using h5.2, k, h3, by simpa using h6, _, ⟨h5, ⟨by omega, h6.2⟩, rfl⟩, rfl⟩

theorem write16_iff (L : Lib) (lba : Int) (buf : Bytes) (bs : Int) (r : Req) :
    write16 L lba buf bs = .ok r ↔ (0 ≤ lba ∧ lba < 2 ^ 64) ∧ bs ≠ 0 ∧ ∃ k : Int, (buf.length : Int) = k * bs ∧
      (0 ≤ k ∧ k < 2 ^ 32) ∧ r = .write (Spec.Cdb.write16 lba.toNat k.toNat) buf := by
  unfold write16
  rw [write_shape (P := fun tl => pack L [("logical_block_address", lba), ("transfer_length", tl)] write16Fields)
    (lim := fun tl => 0 ≤ tl ∧ tl < 2 ^ 32) (bound := lba < 2 ^ 64)]
  simp only [write16_cdb]
  constructor
  · rintro ⟨h1, _, k, h3, h4, _, ⟨h5, h6, rfl⟩, rfl⟩
    exact ⟨h5, h1, k, h3, h6, rfl⟩
  · rintro ⟨h5, h1, k, h3, h6, rfl⟩
    exact ⟨h1, by simpa using h5.2, k, h3, by simpa using h6, _, ⟨h5, h6, rfl⟩, rfl⟩

theorem writeSame10_iff (L : Lib) (lba : Int) (buf : Bytes) (n bs : Int) (r : Req) :
    writeSame10 L lba buf n bs = .ok r ↔ buf.length % 512 = 0 ∧ (0 ≤ lba ∧ lba < 2 ^ 32) ∧ (0 ≤ n ∧ n < 2 ^ 16) ∧
      r = .write (Spec.Cdb.writeSame10 lba.toNat n.toNat) buf := by
  cdb_iff [writeSame10, writeSame10Fields, Spec.Cdb.writeSame10]

theorem writeSame16_iff (L : Lib) (lba : Int) (buf : Bytes) (n bs : Int) (r : Req) :
    writeSame16 L lba buf n bs = .ok r ↔ buf.length % 512 = 0 ∧ (0 ≤ lba ∧ lba < 2 ^ 64) ∧ (0 ≤ n ∧ n < 2 ^ 32) ∧
      r = .write (Spec.Cdb.writeSame16 lba.toNat n.toNat) buf := by
  cdb_iff [writeSame16, writeSame16Fields, Spec.Cdb.writeSame16]

theorem compareAndWrite_cdb (L : Lib) (lba n : Int) (bs : Bytes) :
    pack L [("logical_block_address", lba), ("number_of_logical_blocks", n)] compareAndWriteFields = .ok bs ↔
      (0 ≤ lba ∧ lba < 2 ^ 64) ∧ (0 ≤ n ∧ n < 2 ^ 8) ∧ Spec.Cdb.compareAndWrite lba.toNat n.toNat = bs := by
  cdb_iff [compareAndWriteFields, Spec.Cdb.compareAndWrite, be_one]

theorem compareAndWrite_iff (L : Lib) (lba : Int) (buf : Bytes) (n bs : Int) (r : Req) :
    compareAndWrite L lba buf n bs = .ok r ↔ (0 ≤ lba ∧ lba < 2 ^ 64) ∧ (0 ≤ n ∧ n < 2 ^ 8) ∧ bs ≠ 0 ∧
      (∃ k : Int, (buf.length : Int) = k * bs) ∧ r = .write (Spec.Cdb.compareAndWrite lba.toNat n.toNat) buf := by
  simp only [compareAndWrite, bind_eq_ok, pyAssert_eq_ok, compareAndWrite_cdb, pyDiv_eq_ok, pyMod_eq_ok]
  constructor
  · rintro ⟨q, ⟨hb0, h4⟩, x, ⟨_, h2⟩, _, h3, _, h5, _, h6, _, ⟨h7, h9, rfl⟩, h8⟩
    cases h8
    have h3 : x = 0 := by simpa using h3
    obtain ⟨k, hk, rfl⟩ := (whole_iff (P := fun k => k = q) hb0).1 ⟨h2.trans h3, h4⟩
    exact ⟨h7, h9, hb0, ⟨k, hk⟩, rfl⟩
  · rintro ⟨h7, h9, hb0, ⟨k, hk⟩, rfl⟩
    obtain ⟨h2, h4⟩ := (whole_iff (P := fun q => q = k) hb0).2 ⟨k, hk, rfl⟩
    exact ⟨k, ⟨hb0, h4⟩, 0, ⟨hb0, h2⟩, (), by simp, (), by simpa using h7.2, (), by simpa using h9.2, _,
      ⟨h7, h9, rfl⟩, rfl⟩

theorem unmapBlock_iff (L : Lib) (lba n : Int) (bs : Bytes) :
    unmapBlock L lba n = .ok bs ↔ (0 ≤ lba ∧ lba < 2 ^ 64) ∧ (0 ≤ n ∧ n < 2 ^ 32) ∧
      Spec.Cdb.unmapDescriptor (lba.toNat, n.toNat) = bs := by
  cdb_iff [unmapBlock, Spec.Cdb.unmapDescriptor]

/-- A range that fits its descriptor. -/
abbrev RangeOk (r : Int × Int) : Prop := (0 ≤ r.1 ∧ r.1 < 2 ^ 64) ∧ (0 ≤ r.2 ∧ r.2 < 2 ^ 32)

abbrev toNats (r : Int × Int) : Nat × Nat := (r.1.toNat, r.2.toNat)

theorem unmapBlocks_iff (L : Lib) (ranges : List (Int × Int)) (bs : Bytes) :
    unmapBlocks L ranges = .ok bs ↔ (∀ r ∈ ranges, RangeOk r) ∧ Spec.Cdb.unmapDescriptors (ranges.map toNats) = bs := by
  induction ranges generalizing bs with
  | nil => simp [unmapBlocks, Spec.Cdb.unmapDescriptors]
  | cons r rs ih =>
    obtain ⟨a, n⟩ := r
    simp only [unmapBlocks, bind_eq_ok, unmapBlock_iff, ih]
    constructor
    · rintro ⟨_, ⟨h1, h2, rfl⟩, _, ⟨h3, rfl⟩, h4⟩
      cases h4
      refine ⟨?_, by simp [Spec.Cdb.unmapDescriptors]⟩
      intro r hr
      rcases List.mem_cons.1 hr with rfl | hr
      · exact ⟨h1, h2⟩
      · exact h3 r hr
    · rintro ⟨h, rfl⟩
      have h0 := h (a, n) (by simp)
      exact ⟨_, ⟨h0.1, h0.2, rfl⟩, _, ⟨fun r hr => h r (by simp [hr]), rfl⟩, by simp [Spec.Cdb.unmapDescriptors]⟩

theorem unmapDescriptors_length (rs : List (Nat × Nat)) : (Spec.Cdb.unmapDescriptors rs).length = 16 * rs.length := by
  induction rs with
  | nil => simp [Spec.Cdb.unmapDescriptors]
  | cons r rs ih =>
    simp only [Spec.Cdb.unmapDescriptors, List.map_cons, List.flatten_cons, List.length_append] at *
    rw [ih]
    simp [Spec.Cdb.unmapDescriptor]
    omega

theorem unmapHeader_aux (L : Lib) (a b : Int) (bs : Bytes) :
    pack L [("unmap_data_length", a), ("unmap_block_descriptor_data_length", b)]
      [.uint "unmap_data_length" 2, .uint "unmap_block_descriptor_data_length" 2, .pad 4] = .ok bs ↔
    (0 ≤ a ∧ a < 65536) ∧ (0 ≤ b ∧ b < 65536) ∧ be 2 a.toNat ++ (be 2 b.toNat ++ [0, 0, 0, 0]) = bs := by
  simp [bind_eq_ok, pack, packDecl_pad, List.lookup, packDecl_uint, attr, packUInt_eq_ok, and_assoc,
    zeros, List.replicate]

theorem unmapHeader_iff (L : Lib) (len : Nat) (bs : Bytes) :
    unmapHeader L len = .ok bs ↔ len + 7 < 2 ^ 16 ∧ bs = be 2 (len + 7) ++ be 2 len ++ [0, 0, 0, 0] := by
  unfold unmapHeader
  rw [unmapHeader_aux]
  have e1 : ((len : Int) + 7).toNat = len + 7 := by omega
  have e2 : (len : Int).toNat = len := by omega
  rw [e1, e2]
  constructor
  · rintro ⟨h1, h2, rfl⟩; exact ⟨by omega, by rw [List.append_assoc]⟩
  · rintro ⟨h1, rfl⟩; exact ⟨by omega, by omega, by rw [List.append_assoc]⟩

theorem unmap_cdb_aux (L : Lib) (n : Int) (bs : Bytes) :
    pack L [("parameter_list_length", n)] unmapFields = .ok bs ↔
      (0 ≤ n ∧ n < 65536) ∧ Spec.Cdb.unmap n.toNat = bs := by
  simp [unmapFields, bind_eq_ok, pack, packDecl_pad, opcode, control, List.lookup, Lib.enc_int,
    packDecl_uint, packDecl_bits, attr, packUInt_eq_ok, packBits, bitsWidth, BitDecl.width, le, and_assoc,
    zeros, List.replicate, Spec.Cdb.unmap]

theorem unmap_cdb (L : Lib) (n : Nat) (bs : Bytes) :
    pack L [("parameter_list_length", (n : Int))] unmapFields = .ok bs ↔ n < 2 ^ 16 ∧ Spec.Cdb.unmap n = bs := by
  rw [unmap_cdb_aux]
  have e2 : (n : Int).toNat = n := by omega
  rw [e2]
  constructor
  · rintro ⟨h1, rfl⟩; exact ⟨by omega, rfl⟩
  · rintro ⟨h1, rfl⟩; exact ⟨by omega, rfl⟩

theorem unmap_iff (L : Lib) (ranges : List (Int × Int)) (r : Req) :
    unmap L ranges = .ok r ↔ (∀ x ∈ ranges, RangeOk x) ∧ 16 * ranges.length + 8 < 2 ^ 16 ∧
      r = .write (Spec.Cdb.unmap (16 * ranges.length + 8))
        (be 2 (16 * ranges.length + 7) ++ be 2 (16 * ranges.length) ++ [0, 0, 0, 0] ++
          Spec.Cdb.unmapDescriptors (ranges.map toNats)) := by
  simp only [unmap, bind_eq_ok, unmapBlocks_iff, unmapHeader_iff, unmap_cdb]
  have hl : (Spec.Cdb.unmapDescriptors (ranges.map toNats)).length = 16 * ranges.length := by
    rw [unmapDescriptors_length, List.length_map]
  constructor
  · rintro ⟨_, ⟨h1, rfl⟩, _, ⟨h2, rfl⟩, _, ⟨h3, rfl⟩, h4⟩
    cases h4
    simp only [List.length_append, be_length, List.length_cons, List.length_nil, hl] at h3 ⊢
    refine ⟨h1, by omega, ?_⟩
    have : 2 + 2 + (0 + 1 + 1 + 1 + 1) + 16 * ranges.length = 16 * ranges.length + 8 := by omega
    rw [this]
  · rintro ⟨h1, h2, rfl⟩
    refine ⟨_, ⟨h1, rfl⟩, _, ⟨by omega, rfl⟩, _, ⟨?_, rfl⟩, ?_⟩
    · simp only [List.length_append, be_length, List.length_cons, List.length_nil, hl]; omega
    · simp only [List.length_append, be_length, List.length_cons, List.length_nil, hl]
      have : 2 + 2 + (0 + 1 + 1 + 1 + 1) + 16 * ranges.length = 16 * ranges.length + 8 := by omega
      rw [this]

@[simp] theorem byte_mod (n : Nat) : byte (n % 256) = byte n := by
  rw [byte_eq_iff]; simp

theorem testUnitReady_eq (L : Lib) : testUnitReady L = .ok (.read Spec.Cdb.testUnitReady 0) := by
  simp [testUnitReady, pack, packDecl_pad, packDecl_bits, opcode, control, packBits, attr, List.lookup,
    Lib.enc_int, bitsWidth, BitDecl.width, le, zeros, List.replicate, Spec.Cdb.testUnitReady]

theorem inquiry_iff (L : Lib) (evpd page alloc : Int) (r : Req) :
    inquiry L evpd page alloc = .ok r ↔ ∃ e, L.enc 1 evpd = .ok e ∧ (0 ≤ page ∧ page < 2 ^ 8) ∧
      (0 ≤ alloc ∧ alloc < 2 ^ 16) ∧ r = .read (Spec.Cdb.inquiry e page.toNat alloc.toNat) alloc := by
  cdb_iff [inquiry, Spec.Cdb.inquiry]

theorem readCapacity10_iff (L : Lib) (lba pmi : Int) (r : Req) :
    readCapacity10 L lba pmi = .ok r ↔ (0 ≤ lba ∧ lba < 2 ^ 32) ∧ ∃ p, L.enc 1 pmi = .ok p ∧
      r = .read (Spec.Cdb.readCapacity10 lba.toNat p) 8 := by
  cdb_iff [readCapacity10, Spec.Cdb.readCapacity10]

theorem readCapacity16_iff (L : Lib) (lba pmi : Int) (r : Req) :
    readCapacity16 L lba pmi = .ok r ↔ (0 ≤ lba ∧ lba < 2 ^ 64) ∧ ∃ p, L.enc 1 pmi = .ok p ∧
      r = .read (Spec.Cdb.readCapacity16 lba.toNat 32 p) 32 := by
  cdb_iff [readCapacity16, Spec.Cdb.readCapacity16]

theorem reportLuns_iff (L : Lib) (select alloc : Int) (r : Req) :
    reportLuns L select alloc = .ok r ↔ (0 ≤ select ∧ select < 2 ^ 8) ∧ (0 ≤ alloc ∧ alloc < 2 ^ 32) ∧
      r = .read (Spec.Cdb.reportLuns select.toNat alloc.toNat) alloc := by
  cdb_iff [reportLuns, Spec.Cdb.reportLuns]

theorem rtpg_iff (L : Lib) (fmt alloc : Int) (r : Req) :
    rtpg L fmt alloc = .ok r ↔ (fmt = 0 ∨ fmt = 1) ∧ (0 ≤ alloc ∧ alloc < 2 ^ 32) ∧
      r = .read (Spec.Cdb.reportTargetPortGroups fmt.toNat alloc.toNat) alloc := by
  by_cases h : fmt = 0 ∨ fmt = 1
  · rcases h with rfl | rfl <;> cdb_iff [rtpg, Spec.Cdb.reportTargetPortGroups]
  · simp [rtpg, bind_eq_ok, pyAssert_eq_ok, h]

/-- Evaluate the packing of a positional structure. -/
macro "at_iff" "[" ls:Lean.Parser.Tactic.simpLemma,* "]" : tactic => `(tactic| (
  simp [bind_eq_ok, pyAssert_eq_ok, packAt, controlAt, Ref.write, Ref.width, setRange, grow, zeros, List.replicate,
    be, setBits, Lib.enc_int, and_assoc, eq_comm (b := Req.read _ _), eq_comm (b := Req.write _ _), $ls,*]))

theorem logSense_iff (L : Lib) (page sub alloc : Int) (r : Req) :
    logSense L page sub alloc = .ok r ↔ ∃ p s a, L.enc 6 page = .ok p ∧ L.enc 8 sub = .ok s ∧ L.enc 16 alloc = .ok a ∧
      r = .read (Spec.Cdb.logSense p s a) alloc := by
  at_iff [logSense, Spec.Cdb.logSense]
  refine exists_congr fun a => and_congr_right fun h => ?_
  have := L.enc_lt _ _ _ h
  rw [Nat.mod_eq_of_lt this]

theorem receiveCopyOperatingParameters_iff (L : Lib) (alloc ctrl : Int) (r : Req) :
    receiveCopyOperatingParameters L alloc ctrl = .ok r ↔ ∃ a c, L.enc 32 alloc = .ok a ∧ L.enc 8 ctrl = .ok c ∧
      r = .read (Spec.Cdb.receiveCopyOperatingParameters a c) alloc := by
  at_iff [receiveCopyOperatingParameters, Spec.Cdb.receiveCopyOperatingParameters]

theorem receiveDiagnostic_iff (L : Lib) (pcv page alloc : Int) (r : Req) :
    receiveDiagnostic L pcv page alloc = .ok r ↔ ∃ v p a, L.enc 1 pcv = .ok v ∧ L.enc 8 page = .ok p ∧
      L.enc 16 alloc = .ok a ∧ r = .read (Spec.Cdb.receiveDiagnosticResults v p a) alloc := by
  at_iff [receiveDiagnostic, Spec.Cdb.receiveDiagnosticResults]
  refine exists_congr fun a => and_congr_right fun h => ?_
  have := L.enc_lt _ _ _ h
  rw [Nat.mod_eq_of_lt this]

theorem reserve6_eq (L : Lib) : reserve6 L = .ok (.write Spec.Cdb.reserve6 []) := by
  at_iff [reserve6, Spec.Cdb.reserve6]

theorem release6_eq (L : Lib) : release6 L = .ok (.write Spec.Cdb.release6 []) := by
  at_iff [release6, Spec.Cdb.release6]

theorem thirdParty_short (L : Lib) (op : Nat) (hop : op < 256) (id : Int) (h0 : 0 ≤ id) (h : id < 256) :
    packAt L (thirdPartyFields op 0 1 id 0) [] = .ok (Spec.Cdb.thirdParty (byte op) true false id.toNat 0) := by
  have : L.enc 8 (op : Int) = .ok op := L.enc_ok 8 op (by omega)
  at_iff [thirdPartyFields, Spec.Cdb.thirdParty, this, h0, h]
  done

theorem thirdParty_long (L : Lib) (op : Nat) (hop : op < 256) :
    packAt L (thirdPartyFields op 1 1 0 8) [] = .ok (Spec.Cdb.thirdParty (byte op) true true 0 8) := by
  have : L.enc 8 (op : Int) = .ok op := L.enc_ok 8 op (by omega)
  at_iff [thirdPartyFields, Spec.Cdb.thirdParty, this]
  done

theorem thirdParty_none (L : Lib) (op : Nat) (hop : op < 256) :
    packAt L (thirdPartyFields op 0 0 0 0) [] = .ok (Spec.Cdb.thirdParty (byte op) false false 0 0) := by
  have : L.enc 8 (op : Int) = .ok op := L.enc_ok 8 op (by omega)
  at_iff [thirdPartyFields, Spec.Cdb.thirdParty, this]
  done

theorem persistentReserveIn_iff (L : Lib) (sa alloc : Int) (r : Req) :
    persistentReserveIn L sa alloc = .ok r ↔ 8 ≤ alloc ∧ ∃ s a, L.enc 5 sa = .ok s ∧ L.enc 16 alloc = .ok a ∧
      r = .read (Spec.Cdb.persistentReserveIn s a) alloc := by
  at_iff [persistentReserveIn, Spec.Cdb.persistentReserveIn]
  refine fun _ => exists_congr fun a => and_congr_right fun h => ?_
  have := L.enc_lt _ _ _ h
  rw [Nat.mod_eq_of_lt this]

theorem proutBasic_iff (L : Lib) (a : ProutArgs) (bs : Bytes) :
    proutBasic L a = .ok bs ↔ ∃ k s t i, L.enc 64 a.key = .ok k ∧ L.enc 64 a.saKey = .ok s ∧
      L.enc 1 a.allTgPt = .ok t ∧ L.enc 1 a.specIPt = .ok i ∧
      Spec.Cdb.proutBasic k s (i = 1) (t = 1) false = bs := by
  at_iff [proutBasic, Spec.Cdb.proutBasic]
  refine exists_congr fun k => and_congr_right fun hk => exists_congr fun s => and_congr_right fun hs =>
    exists_congr fun t => and_congr_right fun ht => exists_congr fun i => and_congr_right fun hi => ?_
  have h1 := L.enc_lt _ _ _ ht
  have h2 := L.enc_lt _ _ _ hi
  have h1 : t = 0 ∨ t = 1 := by omega
  have h2 : i = 0 ∨ i = 1 := by omega
  rcases h1 with rfl | rfl <;> rcases h2 with rfl | rfl <;> simp

/-- The first byte of a transport identifier. -/
theorem transportId_iff (L : Lib) (t : TransportId) (bs : Bytes) :
    t.pack L = .ok bs ↔ ∃ p f, L.enc 4 t.protocolIdentifier = .ok p ∧ L.enc 2 t.formatCode = .ok f ∧
      byte (p + f * 64) :: t.specificData = bs := by
  at_iff [TransportId.pack]
  refine exists_congr fun p => and_congr_right fun hp => exists_congr fun f => and_congr_right fun hf => ?_
  have h1 := L.enc_lt _ _ _ hp
  have h2 := L.enc_lt _ _ _ hf
  have e1 : f % 4 = f := by omega
  have e2 : p % 16 = p := by omega
  have e3 : p % 64 = p := by omega
  simp only [e1, e2]
  simp [e3, UInt8.add_comm]

theorem proutMove_aux (L : Lib) (key saKey aptpl unreg relPort len : Int) (bs : Bytes) :
    packAt L [("reservation_key", .bytes 0 8, key), ("service_action_reservation_key", .bytes 8 16, saKey),
      ("activate_persist_through_power_loss", .bits 17 0 1, aptpl), ("unregister", .bits 17 1 2, unreg),
      ("relative_target_port_identifier", .bytes 18 20, relPort),
      ("transport_id_length", .bytes 20 24, len)] [] = .ok bs ↔
    ∃ k s a u p n, L.enc 64 key = .ok k ∧ L.enc 64 saKey = .ok s ∧ L.enc 1 aptpl = .ok a ∧ L.enc 1 unreg = .ok u ∧
      L.enc 16 relPort = .ok p ∧ L.enc 32 len = .ok n ∧
      be 8 k ++ be 8 s ++ [0, (if u = 1 then 2 else 0) + (if a = 1 then 1 else 0)] ++ be 2 p ++ be 4 n = bs := by
  at_iff []
  refine exists_congr fun k => and_congr_right fun hk => exists_congr fun s => and_congr_right fun hs =>
    exists_congr fun a => and_congr_right fun ha => exists_congr fun u => and_congr_right fun hu => ?_
  have h1 := L.enc_lt _ _ _ ha
  have h2 := L.enc_lt _ _ _ hu
  have h1 : a = 0 ∨ a = 1 := by omega
  have h2 : u = 0 ∨ u = 1 := by omega
  rcases h1 with rfl | rfl <;> rcases h2 with rfl | rfl <;> simp

theorem prout_cdb_aux (L : Lib) (sa ty len : Int) (bs : Bytes) :
    packAt L ([("operation_code", .bytes 0 1, 0x5F), ("service_action", .bits 1 0 5, sa),
      ("pr_type", .bits 2 0 4, ty), ("scope", .bits 3 4 8, 0),
      ("parameter_list_length", .bytes 5 9, len)] ++ controlAt 9) [] = .ok bs ↔
    ∃ s t n, L.enc 5 sa = .ok s ∧ L.enc 4 ty = .ok t ∧ L.enc 32 len = .ok n ∧
      Spec.Cdb.persistentReserveOut s t n = bs := by
  at_iff [Spec.Cdb.persistentReserveOut]
  refine exists_congr fun s => and_congr_right fun hs => exists_congr fun t => and_congr_right fun ht => ?_
  have h1 := L.enc_lt _ _ _ hs
  have h2 := L.enc_lt _ _ _ ht
  rw [Nat.mod_eq_of_lt h1, Nat.mod_eq_of_lt h2]

end Verif.Cdb
