import Verif.Platform.Win32
import Verif.Platform.AixLemmas
set_option linter.unusedSimpArgs false
/-! # Lemmas about the Windows request block -/

namespace Verif.Platform.Win32
open Verif.Spec Verif.Executer

/-- The two Windows data models: 64-bit and 32-bit. -/
def W (b : Bool) : Abi := if b then win64 else win32

/-- Size of the structure proper (without the sense area), and offsets that differ between the two. -/
def osz (b : Bool) : Nat := if b then 56 else 44
def obuf (b : Bool) : Nat := if b then 24 else 20
def optr (b : Bool) : Nat := if b then 8 else 4
def oso (b : Bool) : Nat := if b then 32 else 24
def ocdb (b : Bool) : Nat := if b then 36 else 28

theorem word_W (b : Bool) (raw : Bytes) (off n : Nat) :
    word true raw off n = (load (W b) ⟨"", off, n, false⟩ raw).toNat := by
  cases b
  · exact word_eq win32 raw off n
  · exact word_eq win64 raw off n

theorem sptSize_W (b : Bool) : sptSize (W b) = osz b + 255 := by cases b <;> simp [W, osz]

theorem fld_cdb (b : Bool) : fld (W b) "Cdb" = ⟨"Cdb", ocdb b, 16, false⟩ := by cases b <;> simp [W, ocdb]
theorem fld_status (b : Bool) : fld (W b) "ScsiStatus" = ⟨"ScsiStatus", 2, 1, false⟩ := by cases b <;> simp [W]
theorem fld_dataIn (b : Bool) : fld (W b) "DataIn" = ⟨"DataIn", 8, 1, false⟩ := by cases b <;> simp [W]
theorem fld_len (b : Bool) : fld (W b) "DataTransferLength" = ⟨"DataTransferLength", 12, 4, false⟩ := by cases b <;> simp [W]
theorem fld_sense (b : Bool) : fld (W b) "sense_buffer" = ⟨"sense_buffer", osz b, 255, false⟩ := by cases b <;> simp [W, osz]

theorem storeCdb_eq (b : Bool) (i : Nat) (bs raw : Bytes) (hi : i + bs.length ≤ 16) (h : ocdb b + i + bs.length ≤ raw.length) :
    storeCdb (W b) i bs raw = .ok (splice raw (ocdb b + i) bs) := by
  induction bs generalizing i raw with
  | nil => rw [splice_nil]; rfl
  | cons x bs ih =>
    simp only [List.length_cons] at h hi
    simp only [storeCdb, fld_cdb]
    rw [if_pos (by omega), ih (i + 1) _ (by omega) (by simp only [storeAt, splice_length]; omega)]
    simp only [storeAt]
    rw [← splice_cons raw bs x (ocdb b + i) (by omega)]
    rfl

theorem storeCdb_long (b : Bool) (i : Nat) (bs raw : Bytes) (hi : 16 < i + bs.length) (hi' : i ≤ 16) :
    storeCdb (W b) i bs raw = .error .indexError := by
  induction bs generalizing i raw with
  | nil => simp at hi; omega
  | cons x bs ih =>
    simp only [List.length_cons] at hi
    simp only [storeCdb, fld_cdb]
    by_cases h : i < 16
    · rw [if_pos h]; exact ih (i + 1) _ (by omega) (by omega)
    · rw [if_neg h]

/-- The data buffer `create` attaches. -/
def bufOf (al : Alloc) : Req → Option (Nat × Bytes)
  | .read _ n => if n > 0 then some (al.data, zeros n.toNat) else none
  | .write _ d => if d.length > 0 then some (al.data, d) else none

/-- `DataIn` -/
def dirOf : Req → Int
  | .read _ n => if n > 0 then 1 else 2
  | .write _ d => if d.length > 0 then 0 else 2

/-- The fields of a request block. -/
structure BlockFields (b : Bool) (al : Alloc) (c : Req) (raw : Bytes) : Prop where
  len : raw.length = osz b + 255
  size : load (W b) ⟨"", 0, 2, false⟩ raw = osz b
  status : load (W b) ⟨"", 2, 1, false⟩ raw = 0
  path : load (W b) ⟨"", 3, 1, false⟩ raw = 0
  target : load (W b) ⟨"", 4, 1, false⟩ raw = 0
  lun : load (W b) ⟨"", 5, 1, false⟩ raw = 0
  cmdLen : load (W b) ⟨"", 6, 1, false⟩ raw = c.cdb.length
  senseMax : load (W b) ⟨"", 7, 1, false⟩ raw = 255
  dir : load (W b) ⟨"", 8, 1, false⟩ raw = dirOf c
  dataLen : load (W b) ⟨"", 12, 4, false⟩ raw = dataSize c
  timeout : load (W b) ⟨"", 16, 4, false⟩ raw = 10
  dataPtr : load (W b) ⟨"", obuf b, optr b, false⟩ raw = (if (bufOf al c).isSome then (al.data : Int) else 0)
  senseOff : load (W b) ⟨"", oso b, 4, false⟩ raw = osz b
  cdb : (raw.drop (ocdb b)).take c.cdb.length = c.cdb
  sense : (raw.drop (osz b)).take 255 = zeros 255

/-- The request object. -/
structure Built (b : Bool) (h : Spt) (al : Alloc) (id : Nat) (c : Req) : Prop where
  id : h.packetId = id
  blockAddr : h.blockAddr = al.block
  data : h.data = bufOf al c
  fields : BlockFields b al c h.block

theorem cdb_splice (raw cdb : Bytes) (o n : Nat) (hn : n = cdb.length) (h : o + n ≤ raw.length) :
    ((splice raw o cdb).drop o).take n = cdb := by
  subst hn
  have := slice_splice_same (raw := raw) (off := o) (new := cdb) h
  simpa [slice, List.drop_take] using this

theorem drop_splice (raw bs : Bytes) (o x y : Nat) (h : o + bs.length ≤ x ∨ x + y ≤ o) :
    ((splice raw o bs).drop x).take y = (raw.drop x).take y := by
  have h2 := slice_splice_other (raw := raw) (new := bs) (off := o) (x := x) (y := x + y) (by omega)
  simpa [slice, List.drop_take] using h2

theorem drop_take_zeros (n x y : Nat) (h : x + y ≤ n) : ((zeros n).drop x).take y = zeros y := by
  simp [zeros]; omega

theorem create_long (b : Bool) (al : Alloc) (id : Nat) (c : Req) (h : 16 < c.cdb.length) :
    create (W b) al id c = .error .indexError := by
  unfold create
  simp only
  rw [storeCdb_long b 0 _ _ (by omega) (by decide)]

theorem create_built (b : Bool) (al : Alloc) (id : Nat) (c : Req) (hcdb : c.cdb.length ≤ 16) (hd : dataSize c < 2 ^ 32)
    (hx : al.data < 2 ^ (8 * optr b)) : ∃ h, create (W b) al id c = .ok h ∧ Built b h al id c := by
  unfold create
  simp only
  rw [storeCdb_eq b 0 _ _ (by omega) (by simp only [store_length, zeros_length, sptSize_W]; cases b <;> simp [ocdb, osz] <;> omega)]
  simp only
  cases c with
  | read cdb len =>
    simp only [Req.cdb] at hcdb
    by_cases hl : len > 0
    · have hd' : len < 4294967296 := by simp only [dataSize] at hd; omega
      have hl0 : 0 ≤ len := by omega
      have hmax : max len 0 = len := by omega
      simp only [hl, if_true]
      refine ⟨_, rfl, rfl, rfl, by simp [bufOf, hl], ?_⟩
      cases b
      · have hx' : (al.data : Int) < 4294967296 := by simp [optr] at hx; omega
        constructor <;> simp [setDataBuffer, W, ocdb, osz, obuf, optr, oso, lso, lss_u, lss_s, load_zeros, senseSize, dirOf, bufOf, dataSize, Req.cdb, drop_store, drop_splice, load_splice_other, cdb_splice, drop_take_zeros, *]
        · exact lss_u (by simp) (by decide) (by omega) (by omega)
        · exact cdb_splice _ _ _ _ rfl (by simp; omega)
        · rw [drop_splice _ _ _ _ _ (by omega)]; simp [drop_store, drop_take_zeros]
      · have hx' : (al.data : Int) < 18446744073709551616 := by simp [optr] at hx; omega
        constructor <;> simp [setDataBuffer, W, ocdb, osz, obuf, optr, oso, lso, lss_u, lss_s, load_zeros, senseSize, dirOf, bufOf, dataSize, Req.cdb, drop_store, drop_splice, load_splice_other, cdb_splice, drop_take_zeros, *]
        · exact lss_u (by simp) (by decide) (by omega) (by omega)
        · exact cdb_splice _ _ _ _ rfl (by simp; omega)
        · rw [drop_splice _ _ _ _ _ (by omega)]; simp [drop_store, drop_take_zeros]
    · have hmax : max len 0 = 0 := by omega
      simp only [hl, if_false]
      refine ⟨_, rfl, rfl, rfl, by simp [bufOf, hl], ?_⟩
      cases b
      · have hx' : (al.data : Int) < 4294967296 := by simp [optr] at hx; omega
        constructor <;> simp [setDataBuffer, W, ocdb, osz, obuf, optr, oso, lso, lss_u, lss_s, load_zeros, senseSize, dirOf, bufOf, dataSize, Req.cdb, drop_store, drop_splice, load_splice_other, cdb_splice, drop_take_zeros, *]
        · exact lss_u (by simp) (by decide) (by omega) (by omega)
        · exact cdb_splice _ _ _ _ rfl (by simp; omega)
        · rw [drop_splice _ _ _ _ _ (by omega)]; simp [drop_store, drop_take_zeros]
      · have hx' : (al.data : Int) < 18446744073709551616 := by simp [optr] at hx; omega
        constructor <;> simp [setDataBuffer, W, ocdb, osz, obuf, optr, oso, lso, lss_u, lss_s, load_zeros, senseSize, dirOf, bufOf, dataSize, Req.cdb, drop_store, drop_splice, load_splice_other, cdb_splice, drop_take_zeros, *]
        · exact lss_u (by simp) (by decide) (by omega) (by omega)
        · exact cdb_splice _ _ _ _ rfl (by simp; omega)
        · rw [drop_splice _ _ _ _ _ (by omega)]; simp [drop_store, drop_take_zeros]
  | write cdb d =>
    simp only [Req.cdb] at hcdb
    have hd' : (d.length : Int) < 4294967296 := by simp only [dataSize] at hd; omega
    by_cases hl : d.length > 0
    · simp only [hl, if_true]
      refine ⟨_, rfl, rfl, rfl, by simp [bufOf, hl], ?_⟩
      cases b
      · have hx' : (al.data : Int) < 4294967296 := by simp [optr] at hx; omega
        constructor <;> simp [setDataBuffer, W, ocdb, osz, obuf, optr, oso, lso, lss_u, lss_s, load_zeros, senseSize, dirOf, bufOf, dataSize, Req.cdb, drop_store, drop_splice, load_splice_other, cdb_splice, drop_take_zeros, *]
        · exact lss_u (by simp) (by decide) (by omega) (by omega)
        · exact cdb_splice _ _ _ _ rfl (by simp; omega)
        · rw [drop_splice _ _ _ _ _ (by omega)]; simp [drop_store, drop_take_zeros]
      · have hx' : (al.data : Int) < 18446744073709551616 := by simp [optr] at hx; omega
        constructor <;> simp [setDataBuffer, W, ocdb, osz, obuf, optr, oso, lso, lss_u, lss_s, load_zeros, senseSize, dirOf, bufOf, dataSize, Req.cdb, drop_store, drop_splice, load_splice_other, cdb_splice, drop_take_zeros, *]
        · exact lss_u (by simp) (by decide) (by omega) (by omega)
        · exact cdb_splice _ _ _ _ rfl (by simp; omega)
        · rw [drop_splice _ _ _ _ _ (by omega)]; simp [drop_store, drop_take_zeros]
    · have hz : d = [] := List.length_eq_zero_iff.1 (by omega)
      simp only [hl, if_false]
      refine ⟨_, rfl, rfl, rfl, by simp [bufOf, hl], ?_⟩
      cases b
      · have hx' : (al.data : Int) < 4294967296 := by simp [optr] at hx; omega
        constructor <;> simp [setDataBuffer, W, ocdb, osz, obuf, optr, oso, lso, lss_u, lss_s, load_zeros, senseSize, dirOf, bufOf, dataSize, Req.cdb, drop_store, drop_splice, load_splice_other, cdb_splice, drop_take_zeros, *]
        · exact lss_u (by simp) (by decide) (by omega) (by omega)
        · exact cdb_splice _ _ _ _ rfl (by simp; omega)
        · rw [drop_splice _ _ _ _ _ (by omega)]; simp [drop_store, drop_take_zeros]
      · have hx' : (al.data : Int) < 18446744073709551616 := by simp [optr] at hx; omega
        constructor <;> simp [setDataBuffer, W, ocdb, osz, obuf, optr, oso, lso, lss_u, lss_s, load_zeros, senseSize, dirOf, bufOf, dataSize, Req.cdb, drop_store, drop_splice, load_splice_other, cdb_splice, drop_take_zeros, *]
        · exact lss_u (by simp) (by decide) (by omega) (by omega)
        · exact cdb_splice _ _ _ _ rfl (by simp; omega)
        · rw [drop_splice _ _ _ _ _ (by omega)]; simp [drop_store, drop_take_zeros]

end Verif.Platform.Win32
