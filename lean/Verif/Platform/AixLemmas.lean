import Verif.Platform.Aix
import Verif.Platform.Common
import Verif.Platform.BitLemmas
set_option linter.unusedSimpArgs false
/-! # Lemmas about the AIX request block -/
namespace Verif.Platform

theorem splice_cons (raw bs : Bytes) (b : UInt8) (o : Nat) (h : o + bs.length + 1 ≤ raw.length) :
    splice (splice raw o [b]) (o + 1) bs = splice raw o (b :: bs) := by
  apply List.ext_getElem?
  intro i
  rw [getElem?_splice _ _ _ _ (by rw [splice_length]; omega), getElem?_splice _ _ _ _ (by simp only [List.length_singleton]; omega),
    getElem?_splice _ _ _ _ (by simp only [List.length_cons]; omega)]
  simp only [List.length_cons, List.length_nil]
  by_cases h1 : i = o
  · subst h1
    rw [if_neg (by omega), if_pos (by omega), if_pos (by omega), Nat.sub_self]
    rfl
  · by_cases h2 : o + 1 ≤ i ∧ i < o + 1 + bs.length
    · rw [if_pos h2, if_pos (by omega), show i - o = (i - (o + 1)) + 1 by omega]
      rfl
    · rw [if_neg h2, if_neg (by omega), if_neg (by omega)]

theorem splice_nil (raw : Bytes) (o : Nat) : splice raw o [] = raw := by
  apply List.ext_getElem?
  intro i
  rw [getElem?_splice_other _ _ _ _ (by simp only [List.length_nil]; omega)]

/-- Writing inside a buffer, seen as a whole. -/
theorem readMem_writeMem_inside (m : Mem) (x o n : Nat) (bs : Bytes) (h : o + bs.length ≤ n) :
    readMem (writeMem m (x + o) bs) x n = splice (readMem m x n) o bs := by
  apply List.ext_getElem?
  intro i
  have hl : (readMem m x n).length = n := by simp [readMem]
  rw [getElem?_splice _ _ _ _ (by rw [hl]; exact h), getElem?_readMem, getElem?_readMem]
  simp only [writeMem]
  by_cases hi : i < n
  · rw [if_pos hi, if_pos hi]
    by_cases h2 : o ≤ i ∧ i < o + bs.length
    · rw [if_pos (by omega), if_pos h2, show x + i - (x + o) = i - o by omega, List.getElem?_eq_getElem (by omega)]
      rfl
    · rw [if_neg (by omega), if_neg h2]
  · rw [if_neg hi, if_neg hi, if_neg (by omega)]

theorem load_splice_other {a : Abi} {o z : Nat} {g : Bool} {raw bs : Bytes} {off : Nat} (h : off + bs.length ≤ o ∨ o + z ≤ off) :
    load a ⟨"", o, z, g⟩ (splice raw off bs) = load a ⟨"", o, z, g⟩ raw := by
  unfold load
  simp only
  rw [slice_splice_other (by omega)]

theorem drop_store (a : Abi) (n : String) (o z : Nat) (g : Bool) (v : Int) (raw : Bytes) (x y : Nat) (h : o + z ≤ x ∨ x + y ≤ o) :
    ((store a ⟨n, o, z, g⟩ v raw).drop x).take y = (raw.drop x).take y := by
  have h2 := slice_store_other (a := a) (s := ⟨n, o, z, g⟩) (v := v) (raw := raw) (x := x) (y := x + y) (by simp only; omega)
  simpa [slice, List.drop_take] using h2

end Verif.Platform

namespace Verif.Platform.Aix
open Verif.Spec

theorem storeCdb_eq (l : Bool) (i : Nat) (bs raw : Bytes) (h : 64 + i + bs.length ≤ raw.length) :
    storeCdb (lp64 l) i bs raw = splice raw (64 + i) bs := by
  induction bs generalizing i raw with
  | nil => rw [splice_nil]; rfl
  | cons b bs ih =>
    simp only [List.length_cons] at h
    simp only [storeCdb]
    rw [ih (i + 1) _ (by simp only [storeAt, splice_length]; omega)]
    simp only [storeAt, fld_scsi_cdb]
    rw [← splice_cons raw bs b (64 + i) (by omega)]
    rfl

/-- The flags `create` chooses. -/
def flagsOf : Req → Int
  | .read _ len => if len > 0 then 1 else 0
  | .write _ _ => 0

theorem create_data (a : Abi) (al : Alloc) (c : Req) (t : Int) : (create a al c t).data = Linux.bufOf al c := by
  cases c with
  | read cdb len =>
    unfold create Linux.bufOf; dsimp only; split <;> rfl
  | write cdb d => rfl

theorem storeCdb_length (a : Abi) (i : Nat) (bs raw : Bytes) : (storeCdb a i bs raw).length = raw.length := by
  induction bs generalizing i raw with
  | nil => rfl
  | cons b bs ih => simp only [storeCdb, ih, storeAt, splice_length]

theorem init_length (a : Abi) (cmd raw : Bytes) : (initCommandBuffer a cmd raw).length = raw.length := by
  simp only [initCommandBuffer, store_length, storeCdb_length]

theorem create_length (l : Bool) (al : Alloc) (c : Req) (t : Int) :
    (create (lp64 l) al c t).block.length = 168 := by
  cases c with
  | read cdb len => unfold create setDataBuffer; dsimp only; split <;> simp [init_length]
  | write cdb d => unfold create setDataBuffer; simp [init_length]

theorem create_built (l : Bool) (al : Alloc) (c : Req) (t : Int) : Built (create (lp64 l) al c t) al c 168 :=
  ⟨rfl, create_length l al c t, rfl, rfl, rfl, rfl, create_data ..⟩

/-- The command area after `init_command_buffer`. -/
theorem init_cdb (l : Bool) (cmd raw : Bytes) (h : raw.length = 168) (n : Nat) (hn : n = cmd.length) (hc : cmd.length ≤ 64) :
    ((initCommandBuffer (lp64 l) cmd raw).drop 64).take n = cmd := by
  subst hn
  unfold initCommandBuffer
  simp only [fld_command_length, cdbLen]
  rw [drop_store _ _ _ _ _ _ _ _ _ (by omega), List.take_of_length_le hc,
    storeCdb_eq l 0 (zeros 64) raw (by rw [zeros_length]; omega), storeCdb_eq l 0 cmd _ (by rw [splice_length]; omega)]
  have := slice_splice_same (raw := splice raw (64 + 0) (zeros 64)) (off := 64 + 0) (new := cmd) (by rw [splice_length]; omega)
  simpa [slice, List.drop_take] using this

theorem init_load (l : Bool) (cmd raw : Bytes) (h : raw.length = 168) (o z : Nat) (g : Bool) (ho : o + z ≤ 14 ∨ (16 ≤ o ∧ o + z ≤ 64) ∨ 128 ≤ o) :
    load (lp64 l) ⟨"", o, z, g⟩ (initCommandBuffer (lp64 l) cmd raw) = load (lp64 l) ⟨"", o, z, g⟩ raw := by
  unfold initCommandBuffer
  simp only [fld_command_length, cdbLen]
  have hk : (cmd.take 64).length ≤ 64 := by rw [List.length_take]; omega
  rw [lso (by omega), storeCdb_eq l 0 (zeros 64) raw (by rw [zeros_length]; omega),
    storeCdb_eq l 0 (cmd.take 64) _ (by rw [splice_length]; omega),
    load_splice_other (by omega), load_splice_other (by rw [zeros_length]; omega)]

theorem init_cmdLen (l : Bool) (cmd raw : Bytes) (h : raw.length = 168) (hc : cmd.length < 65536) :
    load (lp64 l) ⟨"", 14, 2, false⟩ (initCommandBuffer (lp64 l) cmd raw) = cmd.length := by
  unfold initCommandBuffer
  simp only [fld_command_length]
  rw [lss_u (by simp only [storeCdb_length]; omega) (by decide) (by omega) (by omega)]

/-- The fields of a request block. -/
structure BlockFields (l : Bool) (al : Alloc) (c : Req) (t : Int) (b : Bytes) : Prop where
  len : b.length = 168
  version : load (lp64 l) ⟨"", 0, 2, false⟩ b = 2
  validity : load (lp64 l) ⟨"", 2, 1, false⟩ b = 0
  qTag : load (lp64 l) ⟨"", 9, 1, false⟩ b = 0
  flags : load (lp64 l) ⟨"", 10, 1, false⟩ b = flagsOf c
  devflags : load (lp64 l) ⟨"", 11, 1, false⟩ b = 1
  qFlags : load (lp64 l) ⟨"", 12, 1, false⟩ b = 0
  cmdLen : load (lp64 l) ⟨"", 14, 2, false⟩ b = c.cdb.length
  einval : load (lp64 l) ⟨"", 16, 2, false⟩ b = 0
  senseMax : load (lp64 l) ⟨"", 18, 2, false⟩ b = 255
  timeout : load (lp64 l) ⟨"", 20, 4, false⟩ b = t
  dataLen : load (lp64 l) ⟨"", 24, 8, false⟩ b = dataSize c
  dataPtr : load (lp64 l) ⟨"", 48, 8, false⟩ b = (if (Linux.bufOf al c).isSome then (al.data : Int) else 0)
  sensePtr : load (lp64 l) ⟨"", 56, 8, false⟩ b = al.sense
  varLen : load (lp64 l) ⟨"", 144, 4, false⟩ b = 0
  cdb : c.cdb.length ≤ 64 → (b.drop 64).take c.cdb.length = c.cdb

theorem create_fields (l : Bool) (al : Alloc) (c : Req) (t : Int)
    (hcdb : c.cdb.length < 65536) (hd : dataSize c < 2 ^ 64) (ht : 0 ≤ t ∧ t < 2 ^ 32)
    (hs : al.sense < 2 ^ 64) (hx : al.data < 2 ^ 64) :
    BlockFields l al c t (create (lp64 l) al c t).block := by
  have hs' : (al.sense : Int) < 18446744073709551616 := by omega
  have hx' : (al.data : Int) < 18446744073709551616 := by omega
  have ht' : t < 4294967296 := ht.2
  have ht0 := ht.1
  cases c with
  | read cdb len =>
    simp only [Req.cdb] at hcdb
    by_cases hl : len > 0
    · have hd' : len < 18446744073709551616 := by simp only [dataSize] at hd; omega
      have hl0 : 0 ≤ len := by omega
      have hmax : max len 0 = len := by omega
      simp only [create, setDataBuffer, hl, if_true]
      constructor <;> simp [lso, lss_u, lss_s, load_zeros, senseSize, flagsOf, Linux.bufOf, hl, dataSize, init_length, init_load, init_cmdLen, Req.cdb, drop_store, *]
      intro h64; exact init_cdb l cdb _ (by simp) _ rfl h64
    · have hmax : max len 0 = 0 := by omega
      simp only [create, setDataBuffer, hl, if_false]
      constructor <;> simp [lso, lss_u, lss_s, load_zeros, senseSize, flagsOf, Linux.bufOf, hl, dataSize, init_length, init_load, init_cmdLen, Req.cdb, drop_store, *]
      intro h64; exact init_cdb l cdb _ (by simp) _ rfl h64
  | write cdb d =>
    have hd' : (d.length : Int) < 18446744073709551616 := by simp only [dataSize] at hd; omega
    simp only [Req.cdb] at hcdb
    simp only [create, setDataBuffer]
    constructor <;> simp [lso, lss_u, lss_s, load_zeros, senseSize, flagsOf, Linux.bufOf, dataSize, init_length, init_load, init_cmdLen, Req.cdb, drop_store, *]
    intro h64; exact init_cdb l cdb _ (by simp) _ rfl h64

/-- What a successful command returns, when flags and length of the request are intact. -/
theorem successData_eq (l : Bool) (al : Alloc) (c : Req) (h : Handle) (m : Mem) (hl : h.block.length = 168)
    (hfl : load (lp64 l) ⟨"", 10, 1, false⟩ (readMem m h.blockAddr 168) = flagsOf c)
    (hdl : load (lp64 l) ⟨"", 24, 8, false⟩ (readMem m h.blockAddr 168) = dataSize c)
    (hdat : h.data = Linux.bufOf al c) :
    successData (lp64 l) m (some h) = .ok (dataBack c m al.data) := by
  simp only [successData, hl, fld_flags, fld_data_length, load_name _ "flags", load_name _ "data_length",
    hfl, hdl, Handle.dataRaw, hdat, dataBack]
  cases c with
  | read cdb n =>
    by_cases hn : n > 0
    · have : max n 0 ≠ 0 := by omega
      simp [flagsOf, Linux.bufOf, dataSize, hn, this]
    · simp [flagsOf, hn]
  | write cdb dd => simp [flagsOf]

end Verif.Platform.Aix
