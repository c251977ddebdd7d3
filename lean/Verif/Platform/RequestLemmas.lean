import Verif.Platform.Tables
import Verif.Spec.Platform
set_option linter.unusedSimpArgs false
/-! # Lemmas: fields of the request blocks, buffers in memory -/
namespace Verif.Platform

theorem lso {a : Abi} {n o z g n' o' z' g'} {v : Int} {raw : Bytes} (h : o + z ≤ o' ∨ o' + z' ≤ o) :
    load a ⟨n', o', z', g'⟩ (store a ⟨n, o, z, g⟩ v raw) = load a ⟨n', o', z', g'⟩ raw := load_store_other h

theorem lss_u {a : Abi} {n n' : String} {o z : Nat} {v : Int} {raw : Bytes} (h : o + z ≤ raw.length) (hz : 0 < z)
    (h0 : 0 ≤ v) (h1 : v < 256 ^ z) : load a ⟨n', o, z, false⟩ (store a ⟨n, o, z, false⟩ v raw) = v :=
  load_store_same (s := ⟨n, o, z, false⟩) h (by simp [Slot.Holds, h0, h1]) hz

theorem lss_s {a : Abi} {n n' : String} {o z : Nat} {v : Int} {raw : Bytes} (h : o + z ≤ raw.length) (hz : 0 < z)
    (h0 : -(2 ^ (8 * z - 1) : Int) ≤ v) (h1 : v < 2 ^ (8 * z - 1)) :
    load a ⟨n', o, z, true⟩ (store a ⟨n, o, z, true⟩ v raw) = v :=
  load_store_same (s := ⟨n, o, z, true⟩) h (by simp only [Slot.Holds, if_true]; exact ⟨h0, h1⟩) hz

theorem word_eq (a : Abi) (raw : Bytes) (off n : Nat) :
    Spec.word a.little raw off n = (load a ⟨"", off, n, false⟩ raw).toNat := by
  unfold Spec.word load nativeNat slice
  simp only [List.drop_take, Nat.add_sub_cancel_left]
  cases a.little <;> rfl

theorem sword_eq (a : Abi) (raw : Bytes) (off n : Nat) :
    Spec.sword a.little raw off n = load a ⟨"", off, n, true⟩ raw := by
  unfold Spec.sword Spec.word load nativeNat slice
  simp only [List.drop_take, Nat.add_sub_cancel_left]
  cases a.little <;> rfl

theorem load_name (a : Abi) (n : String) (o z : Nat) (g : Bool) (raw : Bytes) :
    load a ⟨n, o, z, g⟩ raw = load a ⟨"", o, z, g⟩ raw := rfl

theorem load_nonneg (a : Abi) (n : String) (o z : Nat) (raw : Bytes) : 0 ≤ load a ⟨n, o, z, false⟩ raw := by
  simp [load]

theorem word_lp64 (l : Bool) (raw : Bytes) (off n : Nat) :
    Spec.word l raw off n = (load (lp64 l) ⟨"", off, n, false⟩ raw).toNat := word_eq (lp64 l) raw off n

theorem sword_lp64 (l : Bool) (raw : Bytes) (off n : Nat) :
    Spec.sword l raw off n = load (lp64 l) ⟨"", off, n, true⟩ raw := sword_eq (lp64 l) raw off n

/-- The four regions of a request object are pairwise apart. -/
structure Handle.Apart (h : Handle) : Prop where
  block_sense : h.blockAddr + h.block.length ≤ h.senseAddr ∨ h.senseAddr + h.senseInit.length ≤ h.blockAddr
  block_cmd : h.blockAddr + h.block.length ≤ h.cmdAddr ∨ h.cmdAddr + h.cmd.length ≤ h.blockAddr
  sense_cmd : h.senseAddr + h.senseInit.length ≤ h.cmdAddr ∨ h.cmdAddr + h.cmd.length ≤ h.senseAddr
  data : ∀ x d, h.data = some (x, d) →
    (h.blockAddr + h.block.length ≤ x ∨ x + d.length ≤ h.blockAddr) ∧
    (h.senseAddr + h.senseInit.length ≤ x ∨ x + d.length ≤ h.senseAddr) ∧
    (h.cmdAddr + h.cmd.length ≤ x ∨ x + d.length ≤ h.cmdAddr)

theorem install_block (h : Handle) (m : Mem) : readMem (h.install m) h.blockAddr h.block.length = h.block := by
  unfold Handle.install
  exact readMem_writeMem_same ..

theorem install_cmd {h : Handle} (ha : h.Apart) (m : Mem) : readMem (h.install m) h.cmdAddr h.cmd.length = h.cmd := by
  unfold Handle.install
  dsimp only
  rw [readMem_writeMem_other (by have := ha.block_cmd; omega)]
  split
  · rename_i x d hd
    rw [readMem_writeMem_other (by have := (ha.data x d hd).2.2; omega), readMem_writeMem_same]
  · exact readMem_writeMem_same ..

theorem install_data {h : Handle} (ha : h.Apart) (m : Mem) {x : Nat} {d : Bytes} (hd : h.data = some (x, d)) :
    readMem (h.install m) x d.length = d := by
  unfold Handle.install
  dsimp only
  rw [readMem_writeMem_other (by have := (ha.data x d hd).1; omega)]
  rw [hd]
  exact readMem_writeMem_same ..

end Verif.Platform
