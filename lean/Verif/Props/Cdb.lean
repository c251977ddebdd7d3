import Verif.Cdb.Decode

/-!
# Theorems about command descriptor blocks: C25 - C34, C36

Every theorem quantifies over `L : Lib`, the unknown treatment by `infi.instruct` of values that do not fit a bit
field or positional field.
-/

set_option linter.unusedSimpArgs false

namespace Verif

/-- The library raises an error for every value that does not fit its field. -/
def Lib.Refuses (L : Lib) : Prop := ∀ w v, ¬ Spec.Cdb.Fits w v → ∃ e, L.enc w v = .error e

theorem Lib.strict_refuses : Lib.strict.Refuses := by
  intro w v h
  refine ⟨.structError, ?_⟩
  have : ¬ (0 ≤ v ∧ v < 2 ^ w) := h
  simp [Lib.strict, this]

theorem Lib.Refuses.fits {L : Lib} (h : L.Refuses) {w : Nat} {v : Int} {n : Nat} (e : L.enc w v = .ok n) :
    Spec.Cdb.Fits w v := by
  refine Classical.byContradiction fun hn => ?_
  obtain ⟨x, hx⟩ := h w v hn
  rw [hx] at e
  cases e

/-- A value that fits is stored as it is. -/
theorem Lib.enc_fits (L : Lib) {w : Nat} {v : Int} (h : Spec.Cdb.Fits w v) : L.enc w v = .ok v.toNat :=
  L.enc_int h.1 h.2

theorem Lib.enc_fits_eq (L : Lib) {w : Nat} {v : Int} {n : Nat} (h : Spec.Cdb.Fits w v) (e : L.enc w v = .ok n) :
    n = v.toNat := by
  rw [L.enc_fits h] at e
  cases e
  rfl

theorem fits_toNat {w : Nat} {v : Int} (h : Spec.Cdb.Fits w v) : v.toNat < 2 ^ w := by
  have : ((v.toNat : Nat) : Int) < ((2 ^ w : Nat) : Int) := by
    rw [Int.toNat_of_nonneg h.1]; push_cast; exact h.2
  exact_mod_cast this

end Verif

namespace Verif.Cdb

open Verif.Spec.Cdb

/-! ## C26: READ -/

theorem read6_range (L : Lib) (lba n bs : Int) (hl : Fits 21 lba) (hn : Fits 8 n) :
    read6 L lba n bs = .ok (.read (Spec.Cdb.read6 lba.toNat n.toNat) (if bs * n = 0 then 256 * 512 else bs * n)) := by
  rw [read6_iff]
  have h5 : L.enc 5 (lba / 2 ^ 16) = .ok (lba / 2 ^ 16).toNat := by
    apply L.enc_int
    · have := hl.1; omega
    · have := hl.2; omega
  refine ⟨hl.2, hn, _, h5, ?_⟩
  have e := cdb6_bytes lba hl
  simp only [Spec.Cdb.read6, cdb6, ← e]
  rfl

/-- **C26**, READ(6): address and count of at least one block. -/
theorem C26_read6 (L : Lib) (lba n bs : Int) (hl : Fits 21 lba) (hn : Fits 8 n) (h0 : n ≠ 0) (hb : bs ≠ 0) :
    read6 L lba n bs = .ok (.read (Spec.Cdb.read6 lba.toNat n.toNat) (n * bs)) := by
  rw [read6_range L lba n bs hl hn, if_neg (Int.mul_ne_zero hb h0), Int.mul_comm]

/-- **C26**, READ(10). -/
theorem C26_read10 (L : Lib) (lba n bs : Int) (hl : Fits 32 lba) (hn : Fits 16 n) :
    read10 L lba n bs = .ok (.read (Spec.Cdb.read10 lba.toNat n.toNat) (n * bs)) :=
  (read10_iff ..).2 ⟨hl, hn, by rw [Int.mul_comm]⟩

/-- **C26**, READ(12). -/
theorem C26_read12 (L : Lib) (lba n bs : Int) (hl : Fits 32 lba) (hn : Fits 32 n) :
    read12 L lba n bs = .ok (.read (Spec.Cdb.read12 lba.toNat n.toNat) (n * bs)) :=
  (read12_iff ..).2 ⟨hl, hn, by rw [Int.mul_comm]⟩

/-- **C26**, READ(16). -/
theorem C26_read16 (L : Lib) (lba n bs : Int) (hl : Fits 64 lba) (hn : Fits 32 n) :
    read16 L lba n bs = .ok (.read (Spec.Cdb.read16 lba.toNat n.toNat) (n * bs)) :=
  (read16_iff ..).2 ⟨hl, hn, by rw [Int.mul_comm]⟩

example : Fits 21 0x1ABCDE ∧ Fits 8 255 ∧ Fits 32 0xDEADBEEF ∧ Fits 16 0xFFFF ∧ Fits 64 0x123456789ABCDEF0 := by
  simp [Fits]
example (L : Lib) : read6 L 0x1ABCDE 3 4096 = .ok (.read [0x08, 0x1A, 0xBC, 0xDE, 3, 0] 12288) :=
  C26_read6 L 0x1ABCDE 3 4096 (by simp [Fits]) (by simp [Fits]) (by decide) (by decide)
example (L : Lib) : read16 L 0x123456789ABCDEF0 0x01020304 512 =
    .ok (.read [0x88, 0, 0x12, 0x34, 0x56, 0x78, 0x9A, 0xBC, 0xDE, 0xF0, 1, 2, 3, 4, 0, 0] (0x01020304 * 512)) :=
  C26_read16 L 0x123456789ABCDEF0 0x01020304 512 (by simp [Fits]) (by simp [Fits])

/-! ## C27: READ(6) with count zero -/

/-- **C27** (partial: only for block size 512; see `C27_false`): READ(6) with count 0 asks for 256 blocks and the
response buffer holds 256 blocks. -/
theorem C27_partial (L : Lib) (lba bs : Int) (hl : Fits 21 lba) (hbs : bs = 512) :
    ∃ cdb len, read6 L lba 0 bs = .ok (.read cdb len) ∧ decode cdb [] = some (.read lba.toNat 256) ∧
      len = 256 * bs := by
  refine ⟨_, _, read6_range L lba 0 bs hl (by simp [Fits]), ?_, ?_⟩
  · simpa using decode_read6 lba.toNat 0 (fits_toNat hl) (by decide) []
  · subst hbs; rfl

example (L : Lib) : read6 L 5 0 512 = .ok (.read [0x08, 0, 0, 5, 0, 0] 131072) :=
  read6_range L 5 0 512 (by simp [Fits]) (by simp [Fits])

/-- C27 is false for every other block size: the buffer is too small (or too large) for the 256 blocks asked for. -/
theorem C27_false (L : Lib) (lba bs : Int) (hl : Fits 21 lba) (hbs : bs ≠ 512) :
    ∃ cdb len, read6 L lba 0 bs = .ok (.read cdb len) ∧ decode cdb [] = some (.read lba.toNat 256) ∧
      len ≠ 256 * bs := by
  refine ⟨_, _, read6_range L lba 0 bs hl (by simp [Fits]), ?_, ?_⟩
  · simpa using decode_read6 lba.toNat 0 (fits_toNat hl) (by decide) []
  · simp only [Int.mul_zero, if_true]; omega

example (L : Lib) : ∃ cdb len, read6 L 5 0 4096 = .ok (.read cdb len) ∧ decode cdb [] = some (.read 5 256) ∧
    len ≠ 256 * 4096 := C27_false L 5 4096 (by simp [Fits]) (by decide)

/-! ## C28: WRITE -/

/-- **C28**, WRITE(6): accepted exactly for a buffer of 1..256 whole blocks. -/
theorem C28_write6 (L : Lib) (lba : Int) (buf : Bytes) (bs : Int) (r : Req) (hl : 0 ≤ lba) :
    write6 L lba buf bs = .ok r ↔ lba < 2 ^ 21 ∧ ∃ k : Nat, (buf.length : Int) = k * bs ∧ 0 < k ∧ k ≤ 256 ∧ bs ≠ 0 ∧
      r = .write (Spec.Cdb.write6 lba.toNat (k % 256)) buf := by
  rw [write6_iff]
  have key : lba < 2 ^ 21 → L.enc 5 (lba / 2 ^ 16) = .ok (lba / 2 ^ 16).toNat := by
    intro h; apply L.enc_int <;> omega
  have cdb : lba < 2 ^ 21 → ∀ k : Nat, ([0x0A, byte (lba / 2 ^ 16).toNat] ++ be 2 (lba % 2 ^ 16).toNat ++ [byte k, 0] : Bytes)
      = Spec.Cdb.write6 lba.toNat (k % 256) := by
    intro h k
    have e := cdb6_bytes lba ⟨hl, h⟩
    have hb : byte (k % 256) = byte k := by rw [byte_eq_iff]; simp
    simp only [Spec.Cdb.write6, cdb6, ← e, hb]
    rfl
  constructor
  · rintro ⟨h1, hb, k, hk, ⟨h2, h3⟩, m, hm, rfl⟩
    rw [key h1] at hm
    cases hm
    obtain ⟨j, rfl⟩ := Int.eq_ofNat_of_zero_le (Int.le_of_lt h2)
    refine ⟨h1, j, hk, by omega, by omega, hb, ?_⟩
    rw [Int.toNat_natCast, cdb h1]
  · rintro ⟨h1, k, hk, h2, h3, hb, rfl⟩
    refine ⟨h1, hb, k, hk, by omega, _, key h1, ?_⟩
    rw [Int.toNat_natCast, cdb h1]

/-- **C28**, WRITE(10): accepted exactly for a buffer of fewer than 2^16 whole blocks. -/
theorem C28_write10 (L : Lib) (lba : Int) (buf : Bytes) (bs : Int) (r : Req) :
    write10 L lba buf bs = .ok r ↔ Fits 32 lba ∧ ∃ k : Nat, (buf.length : Int) = k * bs ∧ k < 2 ^ 16 ∧ bs ≠ 0 ∧
      r = .write (Spec.Cdb.write10 lba.toNat k) buf := by
  rw [write10_iff]
  constructor
  · rintro ⟨h1, hb, k, hk, ⟨h2, h3⟩, rfl⟩
    obtain ⟨j, rfl⟩ := Int.eq_ofNat_of_zero_le h2
    exact ⟨h1, j, hk, by omega, hb, by simp⟩
  · rintro ⟨h1, k, hk, h2, hb, rfl⟩
    exact ⟨h1, hb, k, hk, by omega, by simp⟩

/-- **C28**, WRITE(12): accepted exactly for a buffer of at least one and fewer than 2^32 whole blocks. -/
theorem C28_write12 (L : Lib) (lba : Int) (buf : Bytes) (bs : Int) (r : Req) :
    write12 L lba buf bs = .ok r ↔ Fits 32 lba ∧ ∃ k : Nat, (buf.length : Int) = k * bs ∧ 0 < k ∧ k < 2 ^ 32 ∧ bs ≠ 0 ∧
      r = .write (Spec.Cdb.write12 lba.toNat k) buf := by
  rw [write12_iff]
  constructor
  · rintro ⟨h1, hb, k, hk, ⟨h2, h3⟩, rfl⟩
    obtain ⟨j, rfl⟩ := Int.eq_ofNat_of_zero_le (Int.le_of_lt h2)
    exact ⟨h1, j, hk, by omega, by omega, hb, by simp⟩
  · rintro ⟨h1, k, hk, h2, h3, hb, rfl⟩
    exact ⟨h1, hb, k, hk, by omega, by simp⟩

/-- **C28**, WRITE(16): accepted exactly for a buffer of fewer than 2^32 whole blocks. -/
theorem C28_write16 (L : Lib) (lba : Int) (buf : Bytes) (bs : Int) (r : Req) :
    write16 L lba buf bs = .ok r ↔ Fits 64 lba ∧ ∃ k : Nat, (buf.length : Int) = k * bs ∧ k < 2 ^ 32 ∧ bs ≠ 0 ∧
      r = .write (Spec.Cdb.write16 lba.toNat k) buf := by
  rw [write16_iff]
  constructor
  · rintro ⟨h1, hb, k, hk, ⟨h2, h3⟩, rfl⟩
    obtain ⟨j, rfl⟩ := Int.eq_ofNat_of_zero_le h2
    exact ⟨h1, j, hk, by omega, hb, by simp⟩
  · rintro ⟨h1, k, hk, h2, hb, rfl⟩
    exact ⟨h1, hb, k, hk, by omega, by simp⟩

/-- 256 blocks of 2 bytes: WRITE(6) announces count 0. -/
example (L : Lib) : write6 L 0x10203 (List.replicate 512 7) 2 =
    .ok (.write [0x0A, 1, 2, 3, 0, 0] (List.replicate 512 7)) :=
  (C28_write6 L _ _ _ _ (by decide)).2 ⟨by decide, 256, by rw [List.length_replicate]; decide, by decide, by decide, by decide, rfl⟩
example (L : Lib) : write10 L 0x01020304 [1, 2, 3, 4, 5, 6] 2 =
    .ok (.write [0x2A, 0, 1, 2, 3, 4, 0, 0, 3, 0] [1, 2, 3, 4, 5, 6]) :=
  (C28_write10 L _ _ _ _).2 ⟨by simp [Fits], 3, by simp, by decide, by decide, rfl⟩
/-- A buffer that is not a whole number of blocks is refused. -/
example (L : Lib) (r : Req) : write10 L 0 [1, 2, 3] 2 ≠ .ok r := by
  intro h
  obtain ⟨_, k, hk, _⟩ := (C28_write10 L _ _ _ _).1 h
  simp at hk
  omega

/-! ## C30, C31: WRITE SAME, COMPARE AND WRITE -/

/-- **C30** (partial: the length of the buffer is only checked to be a multiple of 512; see `C30_false`):
WRITE SAME(10/16) encode address and count and send the buffer. -/
theorem C30_partial (L : Lib) (lba : Int) (buf : Bytes) (n bs : Int) (r : Req) :
    (writeSame10 L lba buf n bs = .ok r ↔ buf.length % 512 = 0 ∧ Fits 32 lba ∧ Fits 16 n ∧
      r = .write (Spec.Cdb.writeSame10 lba.toNat n.toNat) buf) ∧
    (writeSame16 L lba buf n bs = .ok r ↔ buf.length % 512 = 0 ∧ Fits 64 lba ∧ Fits 32 n ∧
      r = .write (Spec.Cdb.writeSame16 lba.toNat n.toNat) buf) :=
  ⟨writeSame10_iff .., writeSame16_iff ..⟩

example (L : Lib) : writeSame10 L 0x01020304 (zeros 512) 0x0506 512 =
    .ok (.write [0x41, 0, 1, 2, 3, 4, 0, 5, 6, 0] (zeros 512)) :=
  (C30_partial L _ _ _ _ _).1.2 ⟨by rw [zeros_length], by simp [Fits], by simp [Fits], rfl⟩

/-- C30 is false: an accepted buffer need not be one logical block.  With 4096-byte blocks a 512-byte buffer is
accepted; with 512-byte blocks a 1024-byte buffer and an empty buffer are. -/
theorem C30_false (L : Lib) :
    (∃ (buf : Bytes) (bs : Int) (r : Req), bs = 4096 ∧ writeSame10 L 0 buf 1 bs = .ok r ∧ (buf.length : Int) ≠ bs) ∧
    (∃ (buf : Bytes) (bs : Int) (r : Req), bs = 512 ∧ writeSame16 L 0 buf 1 bs = .ok r ∧ (buf.length : Int) ≠ bs) :=
  ⟨⟨zeros 512, 4096, _, rfl, (C30_partial L _ _ _ _ _).1.2 ⟨by rw [zeros_length], by simp [Fits], by simp [Fits], rfl⟩,
      by rw [zeros_length]; decide⟩,
    ⟨[], 512, _, rfl, (C30_partial L _ _ _ _ _).2.2 ⟨by decide, by simp [Fits], by simp [Fits], rfl⟩, by simp⟩⟩

/-- **C31** (partial: the buffer is only checked to be whole blocks, not twice the block count; see `C31_false`):
COMPARE AND WRITE encodes address and count and sends the buffer. -/
theorem C31_partial (L : Lib) (lba : Int) (buf : Bytes) (n bs : Int) (r : Req) :
    compareAndWrite L lba buf n bs = .ok r ↔ Fits 64 lba ∧ Fits 8 n ∧ bs ≠ 0 ∧
      (∃ k : Int, (buf.length : Int) = k * bs) ∧ r = .write (Spec.Cdb.compareAndWrite lba.toNat n.toNat) buf :=
  compareAndWrite_iff ..

example (L : Lib) : compareAndWrite L 0x0102030405060708 [1, 2, 3, 4, 5, 6, 7, 8] 2 2 =
    .ok (.write [0x89, 0, 1, 2, 3, 4, 5, 6, 7, 8, 0, 0, 0, 2, 0, 0] [1, 2, 3, 4, 5, 6, 7, 8]) :=
  (C31_partial L _ _ _ _ _).2 ⟨by simp [Fits], by simp [Fits], by decide, ⟨4, by simp⟩, rfl⟩

/-- C31 is false: a buffer of one block is accepted for a command on one block (which needs two). -/
theorem C31_false (L : Lib) : ∃ (buf : Bytes) (n bs : Int) (r : Req), compareAndWrite L 0 buf n bs = .ok r ∧
    (buf.length : Int) ≠ 2 * n * bs :=
  ⟨[1, 2], 1, 2, _, (C31_partial L _ _ _ _ _).2 ⟨by simp [Fits], by simp [Fits], by decide, ⟨1, by simp⟩, rfl⟩,
    by simp⟩

/-! ## C32: UNMAP -/

/-- **C32** (partial: the first length field of the parameter list is one too large; see `C32_false`).
UNMAP is accepted exactly for ranges that fit their descriptors and a list that fits the 16-bit length; the target
reads exactly the ranges given, in order; the CDB announces the length of the parameter list and the parameter list
announces the length of its descriptors. -/
theorem C32_partial (L : Lib) (ranges : List (Int × Int)) :
    (∀ r, unmap L ranges = .ok r → ∃ cdb params, r = .write cdb params ∧
      targetUnmap params = ranges.map (fun x => (x.1.toNat, x.2.toNat)) ∧
      params.length = 16 * ranges.length + 8 ∧
      cdb = Spec.Cdb.unmap params.length ∧ params.length < 2 ^ 16 ∧ fld params 2 4 = 16 * ranges.length) ∧
    ((∃ r, unmap L ranges = .ok r) ↔ InRange (.unmap ranges)) := by
  constructor
  · intro r h
    obtain ⟨h1, h2, rfl⟩ := (unmap_iff ..).1 h
    have hr : ∀ r ∈ ranges.map toNats, r.1 < 2 ^ 64 ∧ r.2 < 2 ^ 32 := by
      intro r hr
      obtain ⟨x, hx, rfl⟩ := List.mem_map.1 hr
      exact ⟨fits_toNat (h1 x hx).1, fits_toNat (h1 x hx).2⟩
    have hlen : (be 2 (16 * ranges.length + 7) ++ be 2 (16 * ranges.length) ++ [0, 0, 0, 0] ++
        Spec.Cdb.unmapDescriptors (ranges.map toNats)).length = 16 * ranges.length + 8 := by
      simp [unmapDescriptors_length]; omega
    have ht := targetUnmap_params (ranges.map toNats) (16 * ranges.length + 7) hr (by simp; omega)
    rw [List.length_map] at ht
    refine ⟨_, _, rfl, ht, hlen, by rw [hlen], by omega, ?_⟩
    have : 16 * ranges.length % 65536 = 16 * ranges.length := by omega
    simp [fld, slice, List.take_append, List.drop_append, this]
  · constructor
    · rintro ⟨r, h⟩
      obtain ⟨h1, h2, _⟩ := (unmap_iff ..).1 h
      exact ⟨h1, by constructor <;> omega⟩
    · rintro ⟨h1, h2⟩
      exact ⟨_, (unmap_iff ..).2 ⟨h1, by have := h2.2; omega, rfl⟩⟩

example (L : Lib) : unmap L [(0x0102030405060708, 9), (16, 0x01000000)] =
    .ok (.write [0x42, 0, 0, 0, 0, 0, 0, 0, 40, 0]
      [0, 39, 0, 32, 0, 0, 0, 0,  1, 2, 3, 4, 5, 6, 7, 8, 0, 0, 0, 9, 0, 0, 0, 0,
        0, 0, 0, 0, 0, 0, 0, 16, 1, 0, 0, 0, 0, 0, 0, 0]) :=
  (unmap_iff ..).2 ⟨by simp [RangeOk], by decide, rfl⟩

/-- C32 is false: SBC-3 defines bytes 0-1 of the parameter list as the number of bytes that follow them; UNMAP always
announces one byte more than there is. -/
theorem C32_false (L : Lib) (ranges : List (Int × Int)) (cdb params : Bytes)
    (h : unmap L ranges = .ok (.write cdb params)) : fld params 0 2 = params.length - 2 + 1 := by
  obtain ⟨h1, h2, e⟩ := (unmap_iff ..).1 h
  cases e
  have : (16 * ranges.length + 7) % 65536 = 16 * ranges.length + 7 := by omega
  simp [fld, slice, List.take_append, List.drop_append, this, unmapDescriptors_length]
  omega

example (L : Lib) : ∃ cdb params, unmap L [(0, 1)] = .ok (.write cdb params) :=
  ⟨_, _, (unmap_iff ..).2 ⟨by simp [RangeOk], by decide, rfl⟩⟩

/-! ## C33: RESERVE / RELEASE -/

/-- **C33**.  For every id below 2^64 RESERVE(10) and RELEASE(10) are accepted; the device the target reads is the id
given if it is positive, and none otherwise; the form (plain, short, long with parameter list) is as stated; the
parameter list length is the length of the data sent. -/
theorem C33 (L : Lib) (id : Int) (h : id < 2 ^ 64) :
    ∃ cdb cdb' data, reserve10 L id = .ok (.write cdb data) ∧ release10 L id = .ok (.write cdb' data) ∧
      thirdPartyId cdb data = (if 0 < id then some id.toNat else none) ∧
      thirdPartyId cdb' data = (if 0 < id then some id.toNat else none) ∧
      cdb = (if id ≤ 0 then thirdParty 0x56 false false 0 0
        else if id ≤ 254 then thirdParty 0x56 true false id.toNat 0 else thirdParty 0x56 true true 0 data.length) ∧
      cdb' = (if id ≤ 0 then thirdParty 0x57 false false 0 0
        else if id ≤ 254 then thirdParty 0x57 true false id.toNat 0 else thirdParty 0x57 true true 0 data.length) ∧
      data = (if id ≤ 254 then [] else be 8 id.toNat) := by
  by_cases h0 : id ≤ 0
  · refine ⟨_, _, _, (reserve10_iff ..).2 (.inl ⟨h0, rfl⟩), (release10_iff ..).2 (.inl ⟨h0, rfl⟩), ?_, ?_, ?_, ?_, ?_⟩
    · rw [if_neg (by omega)]; exact thirdPartyId_none ..
    · rw [if_neg (by omega)]; exact thirdPartyId_none ..
    · rw [if_pos h0]
    · rw [if_pos h0]
    · rw [if_pos (by omega)]
  · by_cases h1 : id < 255
    · refine ⟨_, _, _, (reserve10_iff ..).2 (.inr (.inl ⟨by omega, h1, rfl⟩)),
        (release10_iff ..).2 (.inr (.inl ⟨by omega, h1, rfl⟩)), ?_, ?_, ?_, ?_, ?_⟩
      · rw [if_pos (by omega)]; exact thirdPartyId_short _ _ (by omega) _
      · rw [if_pos (by omega)]; exact thirdPartyId_short _ _ (by omega) _
      · rw [if_neg h0, if_pos (by omega)]
      · rw [if_neg h0, if_pos (by omega)]
      · rw [if_pos (by omega)]
    · have hf : Fits 64 id := ⟨by omega, h⟩
      refine ⟨_, _, _, (reserve10_iff ..).2 (.inr (.inr ⟨by omega, _, L.enc_fits hf, rfl⟩)),
        (release10_iff ..).2 (.inr (.inr ⟨by omega, _, L.enc_fits hf, rfl⟩)), ?_, ?_, ?_, ?_, ?_⟩
      · rw [if_pos (by omega)]; exact thirdPartyId_long _ _ (fits_toNat hf)
      · rw [if_pos (by omega)]; exact thirdPartyId_long _ _ (fits_toNat hf)
      · rw [if_neg h0, if_neg (by omega), be_length]
      · rw [if_neg h0, if_neg (by omega), be_length]
      · rw [if_neg (by omega)]

/-- The repository's own test vectors. -/
example (L : Lib) : reserve10 L 0x177 =
    .ok (.write [0x56, 0x12, 0, 0, 0, 0, 0, 0, 8, 0] [0, 0, 0, 0, 0, 0, 1, 0x77]) :=
  (reserve10_iff ..).2 (.inr (.inr ⟨by decide, _, L.enc_int (by decide) (by decide), rfl⟩))
example (L : Lib) : reserve10 L 0x77 = .ok (.write [0x56, 0x10, 0, 0x77, 0, 0, 0, 0, 0, 0] []) :=
  (reserve10_iff ..).2 (.inr (.inl ⟨by decide, by decide, rfl⟩))

/-- RESERVE(6) and RELEASE(6) take no arguments. -/
theorem C33_six (L : Lib) : reserve6 L = .ok (.write [0x16, 0, 0, 0, 0, 0] []) ∧
    release6 L = .ok (.write [0x17, 0, 0, 0, 0, 0] []) := ⟨reserve6_eq L, release6_eq L⟩

/-! ## C34: PERSISTENT RESERVE OUT -/

/-- The keys and the type fit their fields and the flags are bits. -/
structure ProutOk (a : ProutArgs) : Prop where
  key : Fits 64 a.key
  saKey : Fits 64 a.saKey
  type : Fits 4 a.prType
  aptpl : Fits 1 a.aptpl
  allTgPt : Fits 1 a.allTgPt
  specIPt : Fits 1 a.specIPt
  unregister : Fits 1 a.unregister
  relPort : Fits 16 a.relPort

theorem bit_toNat {v : Int} (h : Fits 1 v) : (v.toNat = 1) ↔ v = 1 := by
  obtain ⟨h0, h1⟩ := h
  omega

/-- **C34** (partial: APTPL is not transmitted; see `C34_false`), all service actions but REGISTER AND MOVE. -/
theorem C34_basic_partial (L : Lib) (a : ProutArgs) (h : ProutOk a) (h0 : 0 ≤ a.serviceAction) (h8 : a.serviceAction ≤ 8)
    (h7 : a.serviceAction ≠ 7) (haptpl : a.aptpl = 0) :
    persistentReserveOut L a = .ok (.write
      (Spec.Cdb.persistentReserveOut a.serviceAction.toNat a.prType.toNat 24)
      (Spec.Cdb.proutBasic a.key.toNat a.saKey.toNat (a.specIPt = 1) (a.allTgPt = 1) (a.aptpl = 1))) := by
  refine (persistentReserveOut_iff ..).2 ⟨⟨h0, h8⟩, _, ?_, _, 24, L.enc_fits h.type, ?_, rfl⟩
  · rw [if_neg h7, proutBasic_iff]
    refine ⟨_, _, _, _, L.enc_fits h.key, L.enc_fits h.saKey, L.enc_fits h.allTgPt, L.enc_fits h.specIPt, ?_⟩
    simp [bit_toNat h.allTgPt, bit_toNat h.specIPt, haptpl]
  · have : (Spec.Cdb.proutBasic a.key.toNat a.saKey.toNat (a.specIPt = 1) (a.allTgPt = 1) (a.aptpl = 1)).length = 24 := by
      simp [Spec.Cdb.proutBasic]
    rw [this]
    exact L.enc_ok 32 24 (by decide)

/-- **C34**, REGISTER AND MOVE with a transport id of any length that fits its 32-bit length field. -/
theorem C34_register_and_move (L : Lib) (a : ProutArgs) (t : TransportId) (h : ProutOk a) (h7 : a.serviceAction = 7)
    (ht : a.transportId = some t) (hp : Fits 4 t.protocolIdentifier) (hf : Fits 2 t.formatCode)
    (hlen : t.specificData.length + 25 < 2 ^ 32) :
    persistentReserveOut L a = .ok (.write
      (Spec.Cdb.persistentReserveOut 7 a.prType.toNat (t.specificData.length + 25))
      (Spec.Cdb.proutRegisterAndMove a.key.toNat a.saKey.toNat (a.unregister = 1) (a.aptpl = 1) a.relPort.toNat
        (byte (t.protocolIdentifier.toNat + t.formatCode.toNat * 64) :: t.specificData))) := by
  have hs : a.serviceAction.toNat = 7 := by omega
  have hl : (Spec.Cdb.proutRegisterAndMove a.key.toNat a.saKey.toNat (a.unregister = 1) (a.aptpl = 1) a.relPort.toNat
        (byte (t.protocolIdentifier.toNat + t.formatCode.toNat * 64) :: t.specificData)).length =
      t.specificData.length + 25 := by
    simp [Spec.Cdb.proutRegisterAndMove]; omega
  refine (persistentReserveOut_iff ..).2 ⟨by omega, _, ?_, _, _, L.enc_fits h.type, ?_, by rw [hs]⟩
  · rw [if_pos h7, proutRegisterAndMove_iff]
    refine ⟨t, ht, _, (transportId_iff ..).2 ⟨_, _, L.enc_fits hp, L.enc_fits hf, rfl⟩, _, _, _, _, _, _,
      L.enc_fits h.key, L.enc_fits h.saKey, L.enc_fits h.aptpl, L.enc_fits h.unregister, L.enc_fits h.relPort,
      L.enc_ok 32 _ (by rw [List.length_cons]; omega), ?_⟩
    simp [Spec.Cdb.proutRegisterAndMove, bit_toNat h.aptpl, bit_toNat h.unregister]
  · rw [hl]
    exact L.enc_ok 32 _ hlen

/-- C34 is false for APTPL: REGISTER asked to activate persistence through power loss sends the list that asks not to. -/
theorem C34_false (L : Lib) : ∃ a : ProutArgs, ProutOk a ∧ a.serviceAction = 0 ∧ a.aptpl = 1 ∧
    persistentReserveOut L a = .ok (.write (Spec.Cdb.persistentReserveOut 0 1 24)
      (Spec.Cdb.proutBasic a.key.toNat a.saKey.toNat false false false)) := by
  refine ⟨{ serviceAction := 0, key := 0, saKey := 0xABBA, aptpl := 1 }, ?_, rfl, rfl, ?_⟩
  · constructor <;> simp [Fits]
  · have := C34_basic_partial L { serviceAction := 0, key := 0, saKey := 0xABBA, aptpl := 0 }
      (by constructor <;> simp [Fits]) (by decide) (by decide) (by decide) rfl
    exact this

/-- RESERVE, write exclusive (type 1), as in the repository's tests. -/
example (L : Lib) : persistentReserveOut L { serviceAction := 1, key := 0xABBA } =
    .ok (.write [0x5F, 1, 1, 0, 0, 0, 0, 0, 24, 0]
      [0, 0, 0, 0, 0, 0, 0xAB, 0xBA, 0, 0, 0, 0, 0, 0, 0, 0, 0, 0, 0, 0, 0, 0, 0, 0]) :=
  C34_basic_partial L { serviceAction := 1, key := 0xABBA } (by constructor <;> simp [Fits]) (by decide) (by decide)
    (by decide) rfl
example (L : Lib) : persistentReserveOut L
      { serviceAction := 7, key := 1, saKey := 2, relPort := 3, aptpl := 1, transportId := some { specificData := [9, 8, 7] } } =
    .ok (.write [0x5F, 7, 1, 0, 0, 0, 0, 0, 28, 0]
      [0, 0, 0, 0, 0, 0, 0, 1, 0, 0, 0, 0, 0, 0, 0, 2, 0, 1, 0, 3, 0, 0, 0, 4, 1, 9, 8, 7]) :=
  C34_register_and_move L
    { serviceAction := 7, key := 1, saKey := 2, relPort := 3, aptpl := 1, transportId := some { specificData := [9, 8, 7] } }
    { specificData := [9, 8, 7] } (by constructor <;> simp [Fits]) rfl rfl (by simp [Fits])
    (by simp [Fits]) (by decide)

/-! ## C36: the remaining commands -/

/-- **C36**.  The byte strings of the standard, and a response of exactly the allocation length in the CDB. -/
theorem C36_inquiry (L : Lib) (evpd page alloc : Int) (he : Fits 1 evpd) (hp : Fits 8 page) (ha : Fits 16 alloc) :
    inquiry L evpd page alloc = .ok (.read (Spec.Cdb.inquiry evpd.toNat page.toNat alloc.toNat) alloc) :=
  (inquiry_iff ..).2 ⟨_, L.enc_fits he, hp, ha, rfl⟩

/-- `StandardInquiryCommand()` without arguments asks for 36 bytes of standard data; `EVPDInquiryCommand` sets the
EVPD bit. -/
theorem C36_inquiry_classes (L : Lib) (page alloc : Int) (hp : Fits 8 page) (ha : Fits 16 alloc) :
    standardInquiry L = .ok (.read [0x12, 0, 0, 0, 36, 0] 36) ∧
    evpdInquiry L page alloc = .ok (.read (Spec.Cdb.inquiry 1 page.toNat alloc.toNat) alloc) :=
  ⟨C36_inquiry L 0 0 36 (by simp [Fits]) (by simp [Fits]) (by simp [Fits]),
    C36_inquiry L 1 page alloc (by simp [Fits]) hp ha⟩

theorem C36_read_capacity10 (L : Lib) (lba pmi : Int) (hl : Fits 32 lba) (hp : Fits 1 pmi) :
    readCapacity10 L lba pmi = .ok (.read (Spec.Cdb.readCapacity10 lba.toNat pmi.toNat) 8) :=
  (readCapacity10_iff ..).2 ⟨hl, _, L.enc_fits hp, rfl⟩

theorem C36_read_capacity16 (L : Lib) (lba pmi : Int) (hl : Fits 64 lba) (hp : Fits 1 pmi) :
    readCapacity16 L lba pmi = .ok (.read (Spec.Cdb.readCapacity16 lba.toNat 32 pmi.toNat) 32) :=
  (readCapacity16_iff ..).2 ⟨hl, _, L.enc_fits hp, rfl⟩

theorem C36_report_luns (L : Lib) (select alloc : Int) (hs : Fits 8 select) (ha : Fits 32 alloc) :
    reportLuns L select alloc = .ok (.read (Spec.Cdb.reportLuns select.toNat alloc.toNat) alloc) :=
  (reportLuns_iff ..).2 ⟨hs, ha, rfl⟩

theorem C36_rtpg (L : Lib) (fmt alloc : Int) (hf : fmt = 0 ∨ fmt = 1) (ha : Fits 32 alloc) :
    rtpg L fmt alloc = .ok (.read (Spec.Cdb.reportTargetPortGroups fmt.toNat alloc.toNat) alloc) :=
  (rtpg_iff ..).2 ⟨hf, ha, rfl⟩

theorem C36_log_sense (L : Lib) (page sub alloc : Int) (hp : Fits 6 page) (hs : Fits 8 sub) (ha : Fits 16 alloc) :
    logSense L page sub alloc = .ok (.read (Spec.Cdb.logSense page.toNat sub.toNat alloc.toNat) alloc) :=
  (logSense_iff ..).2 ⟨_, _, _, L.enc_fits hp, L.enc_fits hs, L.enc_fits ha, rfl⟩

theorem C36_receive_copy (L : Lib) (alloc ctrl : Int) (ha : Fits 32 alloc) (hc : Fits 8 ctrl) :
    receiveCopyOperatingParameters L alloc ctrl =
      .ok (.read (Spec.Cdb.receiveCopyOperatingParameters alloc.toNat ctrl.toNat) alloc) :=
  (receiveCopyOperatingParameters_iff ..).2 ⟨_, _, L.enc_fits ha, L.enc_fits hc, rfl⟩

theorem C36_receive_diagnostic (L : Lib) (pcv page alloc : Int) (hv : Fits 1 pcv) (hp : Fits 8 page)
    (ha : Fits 16 alloc) :
    receiveDiagnostic L pcv page alloc =
      .ok (.read (Spec.Cdb.receiveDiagnosticResults pcv.toNat page.toNat alloc.toNat) alloc) :=
  (receiveDiagnostic_iff ..).2 ⟨_, _, _, L.enc_fits hv, L.enc_fits hp, L.enc_fits ha, rfl⟩

theorem C36_test_unit_ready (L : Lib) : testUnitReady L = .ok (.read [0, 0, 0, 0, 0, 0] 0) := testUnitReady_eq L

theorem C36_persistent_reserve_in (L : Lib) (sa alloc : Int) (hs : Fits 5 sa) (ha : Fits 16 alloc) (h8 : 8 ≤ alloc) :
    persistentReserveIn L sa alloc = .ok (.read (Spec.Cdb.persistentReserveIn sa.toNat alloc.toNat) alloc) :=
  (persistentReserveIn_iff ..).2 ⟨h8, _, _, L.enc_fits hs, L.enc_fits ha, rfl⟩

example (L : Lib) : inquiry L 1 0x83 2048 = .ok (.read [0x12, 1, 0x83, 8, 0, 0] 2048) :=
  C36_inquiry L 1 0x83 2048 (by simp [Fits]) (by simp [Fits]) (by simp [Fits])
example (L : Lib) : rtpg L 1 0x01020304 = .ok (.read [0xA3, 0x2A, 0, 0, 0, 0, 1, 2, 3, 4, 0, 0] 0x01020304) :=
  C36_rtpg L 1 0x01020304 (.inr rfl) (by simp [Fits])
example (L : Lib) : persistentReserveIn L 1 0x2000 = .ok (.read [0x5E, 1, 0, 0, 0, 0, 0, 0x20, 0, 0] 0x2000) :=
  C36_persistent_reserve_in L 1 0x2000 (by simp [Fits]) (by simp [Fits]) (by decide)

/-! ## C25 and C29: all commands -/

/-- **C25**.  Whatever the arguments, an accepted command starts with the operation code of its class and has the
length that operation code announces. -/
theorem C25 (L : Lib) (c : Cmd) (r : Req) (h : request L c = .ok r) :
    r.cdb.head? = some (opcodeOf c) ∧ lengthOfOpcode (opcodeOf c) = some r.cdb.length := by
  cases c with
  | read6 lba n bs =>
    obtain ⟨_, _, m, _, rfl⟩ := (read6_iff ..).1 h
    simp [Req.cdb, opcodeOf, lengthOfOpcode]
  | read10 lba n bs =>
    obtain ⟨_, _, rfl⟩ := (read10_iff ..).1 h
    simp [Req.cdb, opcodeOf, lengthOfOpcode, Spec.Cdb.read10, cdb10]
  | read12 lba n bs =>
    obtain ⟨_, _, rfl⟩ := (read12_iff ..).1 h
    simp [Req.cdb, opcodeOf, lengthOfOpcode, Spec.Cdb.read12, cdb12]
  | read16 lba n bs =>
    obtain ⟨_, _, rfl⟩ := (read16_iff ..).1 h
    simp [Req.cdb, opcodeOf, lengthOfOpcode, Spec.Cdb.read16, cdb16]
  | write6 lba buf bs =>
    obtain ⟨_, _, k, _, _, m, _, rfl⟩ := (write6_iff ..).1 h
    simp [Req.cdb, opcodeOf, lengthOfOpcode]
  | write10 lba buf bs =>
    obtain ⟨_, _, k, _, _, rfl⟩ := (write10_iff ..).1 h
    simp [Req.cdb, opcodeOf, lengthOfOpcode, Spec.Cdb.write10, cdb10]
  | write12 lba buf bs =>
    obtain ⟨_, _, k, _, _, rfl⟩ := (write12_iff ..).1 h
    simp [Req.cdb, opcodeOf, lengthOfOpcode, Spec.Cdb.write12, cdb12]
  | write16 lba buf bs =>
    obtain ⟨_, _, k, _, _, rfl⟩ := (write16_iff ..).1 h
    simp [Req.cdb, opcodeOf, lengthOfOpcode, Spec.Cdb.write16, cdb16]
  | writeSame10 lba buf n bs =>
    obtain ⟨_, _, _, rfl⟩ := (writeSame10_iff L lba buf n bs r).1 h
    simp [Req.cdb, opcodeOf, lengthOfOpcode, Spec.Cdb.writeSame10, cdb10]
  | writeSame16 lba buf n bs =>
    obtain ⟨_, _, _, rfl⟩ := (writeSame16_iff L lba buf n bs r).1 h
    simp [Req.cdb, opcodeOf, lengthOfOpcode, Spec.Cdb.writeSame16, cdb16]
  | compareAndWrite lba buf n bs =>
    obtain ⟨_, _, _, _, rfl⟩ := (compareAndWrite_iff ..).1 h
    simp [Req.cdb, opcodeOf, lengthOfOpcode, Spec.Cdb.compareAndWrite]
  | unmap ranges =>
    obtain ⟨_, _, rfl⟩ := (unmap_iff ..).1 h
    simp [Req.cdb, opcodeOf, lengthOfOpcode, Spec.Cdb.unmap]
  | testUnitReady =>
    rw [request, testUnitReady_eq] at h
    cases h
    exact ⟨rfl, rfl⟩
  | inquiry evpd page alloc =>
    obtain ⟨_, _, _, _, rfl⟩ := (inquiry_iff ..).1 h
    simp [Req.cdb, opcodeOf, lengthOfOpcode, Spec.Cdb.inquiry]
  | readCapacity10 lba pmi =>
    obtain ⟨_, _, _, rfl⟩ := (readCapacity10_iff ..).1 h
    simp [Req.cdb, opcodeOf, lengthOfOpcode, Spec.Cdb.readCapacity10]
  | readCapacity16 lba pmi =>
    obtain ⟨_, _, _, rfl⟩ := (readCapacity16_iff ..).1 h
    simp [Req.cdb, opcodeOf, lengthOfOpcode, Spec.Cdb.readCapacity16]
  | reportLuns select alloc =>
    obtain ⟨_, _, rfl⟩ := (reportLuns_iff ..).1 h
    simp [Req.cdb, opcodeOf, lengthOfOpcode, Spec.Cdb.reportLuns]
  | rtpg fmt alloc =>
    obtain ⟨_, _, rfl⟩ := (rtpg_iff ..).1 h
    simp [Req.cdb, opcodeOf, lengthOfOpcode, Spec.Cdb.reportTargetPortGroups]
  | logSense page subpage alloc =>
    obtain ⟨_, _, _, _, _, _, rfl⟩ := (logSense_iff ..).1 h
    simp [Req.cdb, opcodeOf, lengthOfOpcode, Spec.Cdb.logSense]
  | receiveCopyOperatingParameters alloc ctrl =>
    obtain ⟨_, _, _, _, rfl⟩ := (receiveCopyOperatingParameters_iff ..).1 h
    simp [Req.cdb, opcodeOf, lengthOfOpcode, Spec.Cdb.receiveCopyOperatingParameters]
  | receiveDiagnostic pcv page alloc =>
    obtain ⟨_, _, _, _, _, _, rfl⟩ := (receiveDiagnostic_iff ..).1 h
    simp [Req.cdb, opcodeOf, lengthOfOpcode, Spec.Cdb.receiveDiagnosticResults]
  | reserve6 =>
    rw [request, reserve6_eq] at h
    cases h
    exact ⟨rfl, rfl⟩
  | release6 =>
    rw [request, release6_eq] at h
    cases h
    exact ⟨rfl, rfl⟩
  | reserve10 id =>
    rcases (reserve10_iff ..).1 h with ⟨_, rfl⟩ | ⟨_, _, rfl⟩ | ⟨_, _, _, rfl⟩ <;>
      simp [Req.cdb, opcodeOf, lengthOfOpcode, Spec.Cdb.thirdParty]
  | release10 id =>
    rcases (release10_iff ..).1 h with ⟨_, rfl⟩ | ⟨_, _, rfl⟩ | ⟨_, _, _, rfl⟩ <;>
      simp [Req.cdb, opcodeOf, lengthOfOpcode, Spec.Cdb.thirdParty]
  | persistentReserveOut a =>
    obtain ⟨_, _, _, _, _, _, _, rfl⟩ := (persistentReserveOut_iff ..).1 h
    simp [Req.cdb, opcodeOf, lengthOfOpcode, Spec.Cdb.persistentReserveOut]
  | persistentReserveIn serviceAction alloc =>
    obtain ⟨_, _, _, _, _, rfl⟩ := (persistentReserveIn_iff ..).1 h
    simp [Req.cdb, opcodeOf, lengthOfOpcode, Spec.Cdb.persistentReserveIn]

example (L : Lib) : request L (.read12 0x01020304 0x05060708 512) =
    .ok (.read [0xA8, 0, 1, 2, 3, 4, 5, 6, 7, 8, 0, 0] (0x05060708 * 512)) :=
  C26_read12 L 0x01020304 0x05060708 512 (by simp [Fits]) (by simp [Fits])

/-- Commands all of whose arguments are carried by whole-byte fields of sequential structures, which `struct.pack`
refuses to truncate, or are checked by the command itself. -/
def wholeByte : Cmd → Bool
  | .read10 .. | .read12 .. | .read16 .. | .write10 .. | .write12 .. | .write16 .. | .writeSame10 .. | .writeSame16 ..
  | .compareAndWrite .. | .unmap .. | .reportLuns .. | .rtpg .. | .testUnitReady | .reserve6 | .release6 => true
  | _ => false

/-- **C29** for the commands built from whole-byte fields, whatever the library does with bit fields: a command with an
argument that does not fit (or is negative) is refused. -/
theorem C29_whole_byte (L : Lib) (c : Cmd) (hc : wholeByte c = true) (h : ¬ InRange c) (r : Req) :
    request L c ≠ .ok r := by
  intro e
  refine h ?_
  cases c with
  | read10 lba n bs => obtain ⟨h1, h2, _⟩ := (read10_iff ..).1 e; exact ⟨h1, h2⟩
  | read12 lba n bs => obtain ⟨h1, h2, _⟩ := (read12_iff ..).1 e; exact ⟨h1, h2⟩
  | read16 lba n bs => obtain ⟨h1, h2, _⟩ := (read16_iff ..).1 e; exact ⟨h1, h2⟩
  | write10 lba buf bs => obtain ⟨h1, _, k, h2, h3, _⟩ := (write10_iff ..).1 e; exact ⟨h1, k, h2, h3⟩
  | write12 lba buf bs =>
    obtain ⟨h1, _, k, h2, h3, _⟩ := (write12_iff ..).1 e; exact ⟨h1, k, h2, by omega, h3.2⟩
  | write16 lba buf bs => obtain ⟨h1, _, k, h2, h3, _⟩ := (write16_iff ..).1 e; exact ⟨h1, k, h2, h3⟩
  | writeSame10 lba buf n bs => obtain ⟨_, h1, h2, _⟩ := (writeSame10_iff L lba buf n bs r).1 e; exact ⟨h1, h2⟩
  | writeSame16 lba buf n bs => obtain ⟨_, h1, h2, _⟩ := (writeSame16_iff L lba buf n bs r).1 e; exact ⟨h1, h2⟩
  | compareAndWrite lba buf n bs => obtain ⟨h1, h2, _⟩ := (compareAndWrite_iff ..).1 e; exact ⟨h1, h2⟩
  | unmap ranges => exact (C32_partial L ranges).2.1 ⟨r, e⟩
  | reportLuns select alloc => obtain ⟨h1, h2, _⟩ := (reportLuns_iff ..).1 e; exact ⟨h1, h2⟩
  | rtpg fmt alloc =>
    obtain ⟨h1, h2, _⟩ := (rtpg_iff ..).1 e
    exact ⟨by constructor <;> omega, h2⟩
  | testUnitReady => trivial
  | reserve6 => trivial
  | release6 => trivial
  | _ => cases hc

example : wholeByte (.read10 (2 ^ 32) 1 512) = true ∧ ¬ InRange (.read10 (2 ^ 32) 1 512) :=
  ⟨rfl, by simp [InRange, Fits]⟩

/-- **C29** for all commands (partial: under the assumption that `infi.instruct` refuses values that do not fit bit
fields and positional fields, which cannot be read off the repository; see `C29_false`). -/
theorem C29_partial (L : Lib) (hL : L.Refuses) (c : Cmd) (h : ¬ InRange c) (r : Req) : request L c ≠ .ok r := by
  intro e
  by_cases hw : wholeByte c = true
  · exact C29_whole_byte L c hw h r e
  refine h ?_
  have h6 : ∀ {lba : Int} {m : Nat}, lba < 2 ^ 21 → L.enc 5 (lba / 2 ^ 16) = .ok m → Fits 21 lba := by
    intro lba m h1 h2
    have := (hL.fits h2).1
    exact ⟨by omega, h1⟩
  cases c with
  | read6 lba n bs => obtain ⟨h1, h2, m, h3, _⟩ := (read6_iff ..).1 e; exact ⟨h6 h1 h3, h2⟩
  | write6 lba buf bs =>
    obtain ⟨h1, _, k, h2, h3, m, h4, _⟩ := (write6_iff ..).1 e
    exact ⟨h6 h1 h4, k, h2, h3⟩
  | inquiry evpd page alloc => obtain ⟨_, h1, h2, h3, _⟩ := (inquiry_iff ..).1 e; exact ⟨hL.fits h1, h2, h3⟩
  | readCapacity10 lba pmi => obtain ⟨h1, _, h2, _⟩ := (readCapacity10_iff ..).1 e; exact ⟨h1, hL.fits h2⟩
  | readCapacity16 lba pmi => obtain ⟨h1, _, h2, _⟩ := (readCapacity16_iff ..).1 e; exact ⟨h1, hL.fits h2⟩
  | logSense page subpage alloc =>
    obtain ⟨_, _, _, h1, h2, h3, _⟩ := (logSense_iff ..).1 e
    exact ⟨hL.fits h1, hL.fits h2, hL.fits h3⟩
  | receiveCopyOperatingParameters alloc ctrl =>
    obtain ⟨_, _, h1, h2, _⟩ := (receiveCopyOperatingParameters_iff ..).1 e
    exact ⟨hL.fits h1, hL.fits h2⟩
  | receiveDiagnostic pcv page alloc =>
    obtain ⟨_, _, _, h1, h2, h3, _⟩ := (receiveDiagnostic_iff ..).1 e
    exact ⟨hL.fits h1, hL.fits h2, hL.fits h3⟩
  | reserve10 id =>
    show id < 2 ^ 64
    rcases (reserve10_iff ..).1 e with ⟨h1, _⟩ | ⟨_, h1, _⟩ | ⟨_, _, h1, _⟩
    · omega
    · omega
    · exact (hL.fits h1).2
  | release10 id =>
    show id < 2 ^ 64
    rcases (release10_iff ..).1 e with ⟨h1, _⟩ | ⟨_, h1, _⟩ | ⟨_, _, h1, _⟩
    · omega
    · omega
    · exact (hL.fits h1).2
  | persistentReserveOut a =>
    obtain ⟨h1, p, h2, t, n, h3, _⟩ := (persistentReserveOut_iff ..).1 e
    have hs : Fits 5 a.serviceAction := by constructor <;> omega
    split at h2
    · obtain ⟨_, _, _, _, _, _, _, _, _, _, h4, h5, _⟩ := (proutRegisterAndMove_iff ..).1 h2
      exact ⟨hs, hL.fits h3, hL.fits h4, hL.fits h5⟩
    · obtain ⟨_, _, _, _, h4, h5, _⟩ := (proutBasic_iff ..).1 h2
      exact ⟨hs, hL.fits h3, hL.fits h4, hL.fits h5⟩
  | persistentReserveIn sa alloc =>
    obtain ⟨_, _, _, h1, h2, _⟩ := (persistentReserveIn_iff ..).1 e
    exact ⟨hL.fits h1, hL.fits h2⟩
  | _ => exact absurd rfl hw

example : Lib.strict.Refuses ∧ ¬ InRange (.logSense 64 0 512) := ⟨Lib.strict_refuses, by simp [InRange, Fits]⟩

/-- Without that assumption C29 is false: the command classes themselves do not check LOG SENSE page codes or the
sign of a READ(6) address.  With a library that drops bits, page 64 is sent as page 0, and address -1 as 2^21 - 1. -/
theorem C29_false :
    (∃ r, request .truncating (.logSense 64 0 512) = .ok r ∧ request .truncating (.logSense 0 0 512) = .ok r) ∧
    (∃ r, request .truncating (.read6 (-1) 1 512) = .ok r ∧ decode r.cdb [] = some (.read (2 ^ 21 - 1) 1)) := by
  refine ⟨⟨_, rfl, rfl⟩, ⟨.read [0x08, 0x1F, 0xFF, 0xFF, 1, 0] 512, ?_, by decide⟩⟩
  exact (read6_iff ..).2 ⟨by decide, by decide, _, rfl, rfl⟩

/-- What the target reads from an accepted command is what its arguments ask for. -/
theorem C29_decode (L : Lib) (c : Cmd) (r : Req) (hc : InRange c) (h : request L c = .ok r) :
    decode r.cdb (dataOut r) = some (meaning c) := by
  have hw : ∀ {buf : Bytes} {k bs : Int}, (buf.length : Int) = k * bs → 0 ≤ k → bs ≠ 0 →
      k.toNat = buf.length / bs.toNat := by
    intro buf k bs h0 hk hb
    by_cases h1 : 0 < bs
    · obtain ⟨j, rfl⟩ := Int.eq_ofNat_of_zero_le hk
      obtain ⟨b, rfl⟩ := Int.eq_ofNat_of_zero_le (Int.le_of_lt h1)
      have h2 : buf.length = j * b := by exact_mod_cast h0
      rw [h2, Int.toNat_natCast, Int.toNat_natCast, Nat.mul_div_cancel _ (by omega)]
    · have h2 : k = 0 := by
        refine Classical.byContradiction fun hne => ?_
        have : k * bs < 0 := Int.mul_neg_of_pos_of_neg (by omega) (by omega)
        omega
      subst h2
      have h3 : buf.length = 0 := by simpa using h0
      simp [h3]
  cases c with
  | read6 lba n bs =>
    obtain ⟨h1, h2⟩ := hc
    rw [request, read6_range L lba n bs h1 h2] at h
    cases h
    have : (if n.toNat = 0 then 256 else n.toNat) = (if n = 0 then 256 else n.toNat) := by
      have := h2.1
      split <;> split <;> omega
    simp only [Req.cdb, meaning, decode_read6 _ _ (fits_toNat h1) (fits_toNat h2), this]
  | read10 lba n bs =>
    obtain ⟨_, _, rfl⟩ := (read10_iff ..).1 h
    exact decode_read10 _ _ (fits_toNat hc.1) (fits_toNat hc.2) _
  | read12 lba n bs =>
    obtain ⟨_, _, rfl⟩ := (read12_iff ..).1 h
    exact decode_read12 _ _ (fits_toNat hc.1) (fits_toNat hc.2) _
  | read16 lba n bs =>
    obtain ⟨_, _, rfl⟩ := (read16_iff ..).1 h
    exact decode_read16 _ _ (fits_toNat hc.1) (fits_toNat hc.2) _
  | write6 lba buf bs =>
    obtain ⟨_, k, h1, h2, h3, hb, rfl⟩ := (C28_write6 L lba buf bs r hc.1.1).1 h
    have e := hw h1 (by omega) hb
    rw [Int.toNat_natCast] at e
    have hk : Spec.Cdb.write6 lba.toNat (k % 256) = Spec.Cdb.write6 lba.toNat k := by
      have : byte (k % 256) = byte k := by rw [byte_eq_iff]; simp
      simp only [Spec.Cdb.write6, cdb6, this]
    simp only [Req.cdb, meaning, ← e, hk]
    exact decode_write6 _ _ (fits_toNat hc.1) h2 h3 _
  | write10 lba buf bs =>
    obtain ⟨_, hb, k, h1, h2, rfl⟩ := (write10_iff ..).1 h
    simp only [Req.cdb, meaning, ← hw h1 h2.1 hb]
    exact decode_write10 _ _ (fits_toNat hc.1) (fits_toNat h2) _
  | write12 lba buf bs =>
    obtain ⟨_, hb, k, h1, h2, rfl⟩ := (write12_iff ..).1 h
    simp only [Req.cdb, meaning, ← hw h1 (Int.le_of_lt h2.1) hb]
    exact decode_write12 _ _ (fits_toNat hc.1) (fits_toNat ⟨Int.le_of_lt h2.1, h2.2⟩) _
  | write16 lba buf bs =>
    obtain ⟨_, hb, k, h1, h2, rfl⟩ := (write16_iff ..).1 h
    simp only [Req.cdb, meaning, ← hw h1 h2.1 hb]
    exact decode_write16 _ _ (fits_toNat hc.1) (fits_toNat h2) _
  | writeSame10 lba buf n bs =>
    obtain ⟨_, _, _, rfl⟩ := (writeSame10_iff L lba buf n bs r).1 h
    exact decode_writeSame10 _ _ (fits_toNat hc.1) (fits_toNat hc.2) _
  | writeSame16 lba buf n bs =>
    obtain ⟨_, _, _, rfl⟩ := (writeSame16_iff L lba buf n bs r).1 h
    exact decode_writeSame16 _ _ (fits_toNat hc.1) (fits_toNat hc.2) _
  | compareAndWrite lba buf n bs =>
    obtain ⟨_, _, _, _, rfl⟩ := (compareAndWrite_iff ..).1 h
    exact decode_compareAndWrite _ _ (fits_toNat hc.1) (fits_toNat hc.2) _
  | unmap ranges =>
    obtain ⟨cdb, params, rfl, h1, _, h2, _⟩ := (C32_partial L ranges).1 r h
    simp only [Req.cdb, dataOut, h2, decode_unmap, h1, meaning]
  | testUnitReady =>
    rw [request, testUnitReady_eq] at h
    cases h
    rfl
  | inquiry evpd page alloc =>
    obtain ⟨_, h1, _, _, rfl⟩ := (inquiry_iff ..).1 h
    cases L.enc_fits_eq hc.1 h1
    exact decode_inquiry _ _ _ (fits_toNat hc.1) (fits_toNat hc.2.1) (fits_toNat hc.2.2) _
  | readCapacity10 lba pmi =>
    obtain ⟨_, _, h1, rfl⟩ := (readCapacity10_iff ..).1 h
    cases L.enc_fits_eq hc.2 h1
    exact decode_readCapacity10 _ _ (fits_toNat hc.1) (fits_toNat hc.2) _
  | readCapacity16 lba pmi =>
    obtain ⟨_, _, h1, rfl⟩ := (readCapacity16_iff ..).1 h
    cases L.enc_fits_eq hc.2 h1
    exact decode_readCapacity16 _ _ _ (fits_toNat hc.1) (fits_toNat hc.2) _
  | reportLuns select alloc =>
    obtain ⟨_, _, rfl⟩ := (reportLuns_iff ..).1 h
    exact decode_reportLuns _ _ (fits_toNat hc.1) (fits_toNat hc.2) _
  | rtpg fmt alloc =>
    obtain ⟨_, _, rfl⟩ := (rtpg_iff ..).1 h
    exact decode_rtpg _ _ (fits_toNat hc.1) (fits_toNat hc.2) _
  | logSense page subpage alloc =>
    obtain ⟨_, _, _, h1, h2, h3, rfl⟩ := (logSense_iff ..).1 h
    cases L.enc_fits_eq hc.1 h1
    cases L.enc_fits_eq hc.2.1 h2
    cases L.enc_fits_eq hc.2.2 h3
    exact decode_logSense _ _ _ (fits_toNat hc.1) (fits_toNat hc.2.1) (fits_toNat hc.2.2) _
  | receiveCopyOperatingParameters alloc ctrl =>
    obtain ⟨_, _, h1, h2, rfl⟩ := (receiveCopyOperatingParameters_iff ..).1 h
    cases L.enc_fits_eq hc.1 h1
    exact decode_rcop _ _ (fits_toNat hc.1) _
  | receiveDiagnostic pcv page alloc =>
    obtain ⟨_, _, _, h1, h2, h3, rfl⟩ := (receiveDiagnostic_iff ..).1 h
    cases L.enc_fits_eq hc.1 h1
    cases L.enc_fits_eq hc.2.1 h2
    cases L.enc_fits_eq hc.2.2 h3
    exact decode_rdr _ _ _ (fits_toNat hc.1) (fits_toNat hc.2.1) (fits_toNat hc.2.2) _
  | reserve6 =>
    rw [request, reserve6_eq] at h
    cases h
    rfl
  | release6 =>
    rw [request, release6_eq] at h
    cases h
    rfl
  | reserve10 id =>
    obtain ⟨cdb, _, data, h1, _, h2, _, h3, _⟩ := C33 L id hc
    rw [request, h1] at h
    cases h
    have : ∀ d, decode cdb d = some (.reserve (thirdPartyId cdb d)) := by
      intro d; subst h3; split
      · rfl
      · split <;> rfl
    simp only [Req.cdb, dataOut, this, h2, meaning, gt_iff_lt]
  | release10 id =>
    obtain ⟨_, cdb, data, _, h1, _, h2, _, h3, _⟩ := C33 L id hc
    rw [request, h1] at h
    cases h
    have : ∀ d, decode cdb d = some (.release (thirdPartyId cdb d)) := by
      intro d; subst h3; split
      · rfl
      · split <;> rfl
    simp only [Req.cdb, dataOut, this, h2, meaning, gt_iff_lt]
  | persistentReserveOut a =>
    obtain ⟨h1, h2, h3, h4⟩ := hc
    obtain ⟨_, p, hp, t, n, ht, _, rfl⟩ := (persistentReserveOut_iff ..).1 h
    cases L.enc_fits_eq h2 ht
    have key : fld p 0 8 = a.key.toNat ∧ fld p 8 16 = a.saKey.toNat := by
      have e1 : a.key.toNat % 256 ^ 8 = a.key.toNat := Nat.mod_eq_of_lt (fits_toNat h3)
      have e2 : a.saKey.toNat % 256 ^ 8 = a.saKey.toNat := Nat.mod_eq_of_lt (fits_toNat h4)
      simp only [Nat.reducePow] at e1 e2
      split at hp
      · obtain ⟨_, _, _, _, k, s, _, _, _, _, hk, hs, _, _, _, _, rfl⟩ := (proutRegisterAndMove_iff ..).1 hp
        cases L.enc_fits_eq h3 hk
        cases L.enc_fits_eq h4 hs
        constructor <;> simp [fld, slice, List.take_append, List.drop_append, List.take_of_length_le, e1, e2]
      · obtain ⟨k, s, _, _, hk, hs, _, _, rfl⟩ := (proutBasic_iff ..).1 hp
        cases L.enc_fits_eq h3 hk
        cases L.enc_fits_eq h4 hs
        constructor <;>
          simp [fld, slice, Spec.Cdb.proutBasic, List.take_append, List.drop_append, List.take_of_length_le, e1, e2]
    simp only [Req.cdb, dataOut, decode_prout _ _ _ (fits_toNat h1) (fits_toNat h2), key.1, key.2, meaning]
  | persistentReserveIn sa alloc =>
    obtain ⟨_, _, _, h1, h2, rfl⟩ := (persistentReserveIn_iff ..).1 h
    cases L.enc_fits_eq hc.1 h1
    cases L.enc_fits_eq hc.2 h2
    exact decode_prin _ _ (fits_toNat hc.1) (fits_toNat hc.2) _

/-- **C29**, second form: two accepted in-range commands with the same CDB and the same data-out buffer are commands
of the same operation code that ask for the same thing. -/
theorem C29_injective (L : Lib) (c c' : Cmd) (r r' : Req) (hc : InRange c) (hc' : InRange c')
    (h : request L c = .ok r) (h' : request L c' = .ok r') (hcdb : r.cdb = r'.cdb) (hdata : dataOut r = dataOut r') :
    opcodeOf c = opcodeOf c' ∧ meaning c = meaning c' := by
  have h1 := (C25 L c r h).1
  have h2 := (C25 L c' r' h').1
  have e1 := C29_decode L c r hc h
  have e2 := C29_decode L c' r' hc' h'
  rw [hcdb] at h1 e1
  rw [hdata] at e1
  exact ⟨Option.some.inj (h1.symm.trans h2), Option.some.inj (e1.symm.trans e2)⟩

example (L : Lib) : InRange (.write6 7 [1, 2] 1) ∧ request L (.write6 7 [1, 2] 1) = .ok (.write [0x0A, 0, 0, 7, 2, 0] [1, 2]) :=
  ⟨⟨by simp [Fits], 2, by simp⟩,
    (C28_write6 L _ _ _ _ (by decide)).2 ⟨by decide, 2, by simp, by decide, by decide, by decide, rfl⟩⟩

end Verif.Cdb
