import Verif.Platform.RequestLemmas
set_option linter.unusedSimpArgs false
/-! # Lemmas about the Linux request block -/
namespace Verif.Platform.Linux
open Verif.Spec (Separate dataSize dataBack)

/-- The transfer direction `create` chooses. -/
def dirOf : Req → Int
  | .read _ len => if len > 0 then -3 else -1
  | .write _ _ => -2

/-- The data buffer `create` allocates. -/
def bufOf (al : Alloc) : Req → Option (Nat × Bytes)
  | .read _ len => if len > 0 then some (al.data, zeros len.toNat) else none
  | .write _ d => some (al.data, d)

theorem create_data (a : Abi) (al : Alloc) (i : Nat) (c : Req) (t : Int) : (create a al i c t).data = bufOf al c := by
  cases c with
  | read cdb len =>
    unfold create bufOf; dsimp only; split <;> rfl
  | write cdb d => rfl

theorem create_length (l : Bool) (al : Alloc) (i : Nat) (c : Req) (t : Int) :
    (create (lp64 l) al i c t).block.length = 88 := by
  cases c with
  | read cdb len => unfold create setDataBuffer; dsimp only; split <;> simp
  | write cdb d => unfold create setDataBuffer; simp

/-- The fields of a request block. -/
structure BlockFields (l : Bool) (al : Alloc) (i : Nat) (c : Req) (t : Int) (b : Bytes) : Prop where
  len : b.length = 88
  iface : load (lp64 l) ⟨"", 0, 4, true⟩ b = 83
  dir : load (lp64 l) ⟨"", 4, 4, true⟩ b = dirOf c
  cmdLen : load (lp64 l) ⟨"", 8, 1, false⟩ b = c.cdb.length
  senseMax : load (lp64 l) ⟨"", 9, 1, false⟩ b = 255
  iovec : load (lp64 l) ⟨"", 10, 2, false⟩ b = 0
  dataLen : load (lp64 l) ⟨"", 12, 4, false⟩ b = dataSize c
  dataPtr : load (lp64 l) ⟨"", 16, 8, false⟩ b = (if dirOf c = -1 then 0 else (al.data : Int))
  cmdPtr : load (lp64 l) ⟨"", 24, 8, false⟩ b = al.cmd
  sensePtr : load (lp64 l) ⟨"", 32, 8, false⟩ b = al.sense
  timeout : load (lp64 l) ⟨"", 40, 4, false⟩ b = t
  flags : load (lp64 l) ⟨"", 44, 4, false⟩ b = 1
  packId : load (lp64 l) ⟨"", 48, 4, true⟩ b = i
  status : load (lp64 l) ⟨"", 64, 1, false⟩ b = 0
  host : load (lp64 l) ⟨"", 68, 2, false⟩ b = 0
  driver : load (lp64 l) ⟨"", 70, 2, false⟩ b = 0

/-- All the fields of the block `create` builds. -/
theorem create_fields (l : Bool) (al : Alloc) (i : Nat) (c : Req) (t : Int)
    (hi : i < 2 ^ 31) (hcdb : c.cdb.length ≤ 255) (hd : dataSize c < 2 ^ 32) (ht : 0 ≤ t ∧ t < 2 ^ 32)
    (hs : al.sense < 2 ^ 64) (hc : al.cmd < 2 ^ 64) (hx : al.data < 2 ^ 64) :
    BlockFields l al i c t (create (lp64 l) al i c t).block := by
  have hi' : (i : Int) < 2147483648 := by omega
  have hi0 : (-2147483648 : Int) ≤ i := by omega
  have hs' : (al.sense : Int) < 18446744073709551616 := by omega
  have hc' : (al.cmd : Int) < 18446744073709551616 := by omega
  have hx' : (al.data : Int) < 18446744073709551616 := by omega
  have hcdb' : (c.cdb.length : Int) < 256 := by omega
  have ht' : t < 4294967296 := ht.2
  have ht0 := ht.1
  cases c with
  | read cdb len =>
    by_cases hl : len > 0
    · have hd' : len < 4294967296 := by simp only [dataSize] at hd; omega
      have hl0 : 0 ≤ len := by omega
      have hmax : max len 0 = len := by omega
      simp only [create, setDataBuffer, hl, if_true]
      constructor <;> simp [lso, lss_u, lss_s, load_zeros, senseSize, dirOf, hl, dataSize, *]
    · have hmax : max len 0 = 0 := by omega
      simp only [create, setDataBuffer, hl, if_false]
      constructor <;> simp [lso, lss_u, lss_s, load_zeros, senseSize, dirOf, hl, dataSize, *]
  | write cdb d =>
    have hd' : (d.length : Int) < 4294967296 := by simp only [dataSize] at hd; omega
    simp only [create, setDataBuffer]
    constructor <;> simp [lso, lss_u, lss_s, load_zeros, senseSize, dirOf, dataSize, *]

theorem create_blockAddr (a : Abi) (al : Alloc) (i : Nat) (c : Req) (t : Int) : (create a al i c t).blockAddr = al.block := rfl
theorem create_senseAddr (a : Abi) (al : Alloc) (i : Nat) (c : Req) (t : Int) : (create a al i c t).senseAddr = al.sense := rfl
theorem create_cmdAddr (a : Abi) (al : Alloc) (i : Nat) (c : Req) (t : Int) : (create a al i c t).cmdAddr = al.cmd := rfl
theorem create_cmd (a : Abi) (al : Alloc) (i : Nat) (c : Req) (t : Int) : (create a al i c t).cmd = c.cdb := rfl
theorem create_senseInit (a : Abi) (al : Alloc) (i : Nat) (c : Req) (t : Int) :
    (create a al i c t).senseInit.length = 255 := zeros_length _

/-- What a successful command returns, when the request block is intact. -/
theorem successData_eq (l : Bool) (al : Alloc) (i : Nat) (c : Req) (t : Int) (h : Handle) (m : Mem)
    (hb : BlockFields l al i c t h.block) (hdat : h.data = bufOf al c)
    (hblock : readMem m h.blockAddr 88 = h.block) :
    successData (lp64 l) m (some h) = .ok (dataBack c m al.data) := by
  simp only [successData, hb.len, hblock, fld_dxfer_direction, fld_dxfer_len, load_name _ "dxfer_direction", load_name _ "dxfer_len",
    hb.dir, hb.dataLen, Handle.dataRaw, hdat, dataBack]
  cases c with
  | read cdb n =>
    by_cases hn : n > 0
    · have : max n 0 ≠ 0 := by omega
      simp [dirOf, bufOf, dataSize, hn, this]
    · simp [dirOf, hn]
  | write cdb dd => simp [dirOf]

end Verif.Platform.Linux
