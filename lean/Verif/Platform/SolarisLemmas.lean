import Verif.Platform.Solaris
import Verif.Platform.Common
import Verif.Platform.BitLemmas
set_option linter.unusedSimpArgs false
/-! # Lemmas about the Solaris request block -/
namespace Verif.Platform.Solaris
open Verif.Spec

/-- The flags `create` chooses. -/
def flagsOf : Req → Int
  | .read _ len => if len > 0 then 0x21000A else 0x210002
  | .write _ _ => 0x210002

theorem create_data (a : Abi) (al : Alloc) (c : Req) (t : Int) : (create a al c t).data = Linux.bufOf al c := by
  cases c with
  | read cdb len =>
    unfold create Linux.bufOf; dsimp only; split <;> rfl
  | write cdb d => rfl

theorem create_length (l : Bool) (al : Alloc) (c : Req) (t : Int) :
    (create (lp64 l) al c t).block.length = 64 := by
  cases c with
  | read cdb len => unfold create setDataBuffer; dsimp only; split <;> simp
  | write cdb d => unfold create setDataBuffer; simp

theorem create_built (l : Bool) (al : Alloc) (c : Req) (t : Int) : Built (create (lp64 l) al c t) al c 64 :=
  ⟨rfl, create_length l al c t, rfl, rfl, rfl, rfl, create_data ..⟩

/-- The fields of a request block. -/
structure BlockFields (l : Bool) (al : Alloc) (c : Req) (t : Int) (b : Bytes) : Prop where
  len : b.length = 64
  flags : load (lp64 l) ⟨"", 0, 4, true⟩ b = flagsOf c
  status : load (lp64 l) ⟨"", 4, 2, true⟩ b = 0
  timeout : load (lp64 l) ⟨"", 6, 2, true⟩ b = t
  cmdPtr : load (lp64 l) ⟨"", 8, 8, false⟩ b = al.cmd
  dataPtr : load (lp64 l) ⟨"", 16, 8, false⟩ b = (if (Linux.bufOf al c).isSome then (al.data : Int) else 0)
  dataLen : load (lp64 l) ⟨"", 24, 8, false⟩ b = dataSize c
  cmdLen : load (lp64 l) ⟨"", 40, 1, false⟩ b = c.cdb.length
  senseMax : load (lp64 l) ⟨"", 41, 1, false⟩ b = 255
  rqStatus : load (lp64 l) ⟨"", 42, 1, false⟩ b = 0
  sensePtr : load (lp64 l) ⟨"", 48, 8, false⟩ b = al.sense

theorem create_fields (l : Bool) (al : Alloc) (c : Req) (t : Int)
    (hcdb : c.cdb.length ≤ 255) (hd : dataSize c < 2 ^ 64) (ht : 0 ≤ t ∧ t < 2 ^ 15)
    (hs : al.sense < 2 ^ 64) (hc : al.cmd < 2 ^ 64) (hx : al.data < 2 ^ 64) :
    BlockFields l al c t (create (lp64 l) al c t).block := by
  have hs' : (al.sense : Int) < 18446744073709551616 := by omega
  have hc' : (al.cmd : Int) < 18446744073709551616 := by omega
  have hx' : (al.data : Int) < 18446744073709551616 := by omega
  have hcdb' : (c.cdb.length : Int) < 256 := by omega
  have ht' : t < 32768 := ht.2
  have ht0 : -32768 ≤ t := by omega
  cases c with
  | read cdb len =>
    by_cases hl : len > 0
    · have hd' : len < 18446744073709551616 := by simp only [dataSize] at hd; omega
      have hl0 : 0 ≤ len := by omega
      have hmax : max len 0 = len := by omega
      simp only [create, setDataBuffer, hl, if_true]
      constructor <;> simp [lso, lss_u, lss_s, load_zeros, senseSize, flagsOf, defaultFlags, Linux.bufOf, hl, dataSize, *]
    · have hmax : max len 0 = 0 := by omega
      simp only [create, setDataBuffer, hl, if_false]
      constructor <;> simp [lso, lss_u, lss_s, load_zeros, senseSize, flagsOf, defaultFlags, Linux.bufOf, hl, dataSize, *]
  | write cdb d =>
    have hd' : (d.length : Int) < 18446744073709551616 := by simp only [dataSize] at hd; omega
    simp only [create, setDataBuffer]
    constructor <;> simp [lso, lss_u, lss_s, load_zeros, senseSize, flagsOf, defaultFlags, Linux.bufOf, dataSize, *]

/-- What a successful command returns, when the request block is intact. -/
theorem successData_eq (l : Bool) (al : Alloc) (c : Req) (t : Int) (h : Handle) (m : Mem)
    (hb : BlockFields l al c t h.block) (hdat : h.data = Linux.bufOf al c)
    (hblock : readMem m h.blockAddr 64 = h.block) :
    successData (lp64 l) m (some h) = .ok (dataBack c m al.data) := by
  simp only [successData, hb.len, hblock, fld_uscsi_flags, fld_uscsi_buflen, load_name _ "uscsi_flags", load_name _ "uscsi_buflen",
    hb.flags, hb.dataLen, Handle.dataRaw, hdat, dataBack]
  cases c with
  | read cdb n =>
    by_cases hn : n > 0
    · have : max n 0 ≠ 0 := by omega
      simp [flagsOf, Linux.bufOf, dataSize, hn, this]
    · simp [flagsOf, hn]
  | write cdb dd => simp [flagsOf]

/-- Appending a byte does not change the fields. -/
theorem load_append (l : Bool) (raw x : Bytes) (o z : Nat) (g : Bool) (h : o + z ≤ raw.length) :
    load (lp64 l) ⟨"", o, z, g⟩ (raw ++ x) = load (lp64 l) ⟨"", o, z, g⟩ raw := by
  unfold load slice
  simp only
  rw [List.take_append_of_le_length h]

end Verif.Platform.Solaris
