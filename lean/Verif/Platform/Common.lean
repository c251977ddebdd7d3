import Verif.Platform.LinuxLemmas
import Verif.Spec.Device
set_option linter.unusedSimpArgs false
/-! # Request objects of the Unix platforms: memory lemmas -/
namespace Verif.Platform
open Verif.Spec Verif.Executer

variable {S δ : Type}

/-- What executing a command against a device that answers `ans` must lead to: CHECK CONDITION raises with the sense data, another
non-zero status raises, GOOD returns the data. -/
def outcome (parse : Bytes → Py (Option S)) (c : Req) (ans : Answer) : Except (Exn (DevErr S)) (Option (Option Bytes)) :=
  if ans.status.toNat / 2 % 2 = 1 then
    match parse (padded 255 ans.sense) with
    | .ok s => .error (.dev (.checkCondition (padded 255 ans.sense) s))
    | .error e => .error (.py e)
  else if ans.status ≠ 0 then .error (.dev .scsi)
  else .ok (some (delivered c ans))

theorem outcome_ne (parse : Bytes → Py (Option S)) (c : Req) (ans : Answer)
    (hparse : ans.status.toNat / 2 % 2 = 1 → ∃ sn, parse (padded 255 ans.sense) = .ok sn) (e : PyErr) :
    outcome parse c ans ≠ .error (.py e) := by
  unfold outcome
  split
  · rename_i hcc
    obtain ⟨sn, hsn⟩ := hparse hcc
    rw [hsn]; simp
  · split <;> simp

/-- The device asked directly, command after command. -/
def expected (parse : Bytes → Py (Option S)) (dev : Device δ) : List Req → δ → List (Except (Exn (DevErr S)) (Option (Option Bytes)))
  | [], _ => []
  | c :: cs, k => outcome parse c (dev k (asked c)).1 :: expected parse dev cs (dev k (asked c)).2

/-- The request object consists of the buffers the allocator gave for this command; `n` is the size of the block. -/
structure Built (h : Handle) (al : Alloc) (c : Req) (n : Nat) : Prop where
  blockAddr : h.blockAddr = al.block
  len : h.block.length = n
  senseAddr : h.senseAddr = al.sense
  senseInit : h.senseInit = zeros 255
  cmdAddr : h.cmdAddr = al.cmd
  cmd : h.cmd = c.cdb
  data : h.data = Linux.bufOf al c

/-- The regions of a command's request object. -/
def regions (al : Alloc) (c : Req) (n : Nat) : List (Nat × Nat) :=
  [(al.block, n), (al.sense, 255), (al.cmd, c.cdb.length), (al.data, dataSize c)]

theorem Built.bufLength {h : Handle} {al : Alloc} {c : Req} {n : Nat} (hb : Built h al c n) {x : Nat} {d : Bytes} (hd : h.data = some (x, d)) :
    x = al.data ∧ d.length = dataSize c := by
  rw [hb.data] at hd
  cases c with
  | read cdb n =>
    simp only [Linux.bufOf] at hd
    split at hd
    · simp only [Option.some.injEq, Prod.mk.injEq] at hd
      obtain ⟨rfl, rfl⟩ := hd
      exact ⟨rfl, by rw [zeros_length]; rfl⟩
    · cases hd
  | write cdb dd =>
    simp only [Linux.bufOf, Option.some.injEq, Prod.mk.injEq] at hd
    obtain ⟨rfl, rfl⟩ := hd
    exact ⟨rfl, rfl⟩

theorem regions_apart {bits : Nat} {al : Alloc} {c : Req} {n : Nat} (hsep : Separate bits (regions al c n)) :
    (al.block + n ≤ al.sense ∨ al.sense + 255 ≤ al.block) ∧
    (al.block + n ≤ al.cmd ∨ al.cmd + c.cdb.length ≤ al.block) ∧
    (al.block + n ≤ al.data ∨ al.data + dataSize c ≤ al.block) ∧
    (al.sense + 255 ≤ al.cmd ∨ al.cmd + c.cdb.length ≤ al.sense) ∧
    (al.sense + 255 ≤ al.data ∨ al.data + dataSize c ≤ al.sense) ∧
    (al.cmd + c.cdb.length ≤ al.data ∨ al.data + dataSize c ≤ al.cmd) := by
  obtain ⟨hp, -⟩ := hsep
  simp only [regions, List.pairwise_cons, List.mem_cons, List.not_mem_nil, or_false, forall_eq_or_imp, forall_eq] at hp
  obtain ⟨⟨h1, h2, h3⟩, ⟨h4, h5⟩, h6, -⟩ := hp
  exact ⟨h1, h2, h3, h4, h5, h6⟩

theorem regions_bits {bits : Nat} {al : Alloc} {c : Req} {n : Nat} (hsep : Separate bits (regions al c n)) :
    al.block < 2 ^ bits ∧ al.sense < 2 ^ bits ∧ al.cmd < 2 ^ bits ∧ al.data < 2 ^ bits := by
  have hb := hsep.2
  simp only [regions, List.mem_cons, List.not_mem_nil, or_false, forall_eq_or_imp, forall_eq] at hb
  exact hb

theorem Built.apart {h : Handle} {al : Alloc} {c : Req} {n bits : Nat} (hb : Built h al c n) (hsep : Separate bits (regions al c n)) :
    h.Apart := by
  obtain ⟨h1, h2, h3, h4, h5, h6⟩ := regions_apart hsep
  refine ⟨?_, ?_, ?_, ?_⟩
  · rw [hb.blockAddr, hb.len, hb.senseAddr, hb.senseInit, zeros_length]; exact h1
  · rw [hb.blockAddr, hb.len, hb.cmdAddr, hb.cmd]; exact h2
  · rw [hb.senseAddr, hb.senseInit, zeros_length, hb.cmdAddr, hb.cmd]; exact h4
  · intro x d hd
    obtain ⟨rfl, hdl⟩ := hb.bufLength hd
    rw [hb.blockAddr, hb.len, hb.senseAddr, hb.senseInit, zeros_length, hb.cmdAddr, hb.cmd, hdl]
    exact ⟨h3, h5, h6⟩

theorem writeMem_nil (m : Mem) (x : Nat) : writeMem m x [] = m := by
  funext y
  unfold writeMem
  rw [if_neg (by simp only [List.length_nil]; omega)]

theorem readMem_padded (m : Mem) (x n : Nat) (d : Bytes) (hm : readMem m x n = zeros n) :
    readMem (writeMem m x (d.take n)) x n = padded n d := by
  apply List.ext_getElem?
  intro i
  rw [getElem?_readMem, padded, List.getElem?_take]
  split
  · rename_i hi
    have hz : m (x + i) = 0 := by
      have h1 := getElem?_readMem m x n i
      rw [hm, if_pos hi, zeros, List.getElem?_replicate, if_pos hi] at h1
      exact (Option.some.inj h1).symm
    simp only [writeMem, List.length_take, Nat.add_sub_cancel_left]
    by_cases hl : i < d.length
    · rw [if_pos (by omega), List.getElem?_take, if_pos hi, List.getElem?_append_left hl,
        List.getElem?_eq_getElem hl]
      rfl
    · rw [if_neg (by omega), List.getElem?_append_right (by omega), zeros, List.getElem?_replicate, if_pos (by omega), hz]
  · rfl

theorem install_sense {h : Handle} (ha : h.Apart) (m : Mem) :
    readMem (h.install m) h.senseAddr h.senseInit.length = h.senseInit := by
  unfold Handle.install
  dsimp only
  rw [readMem_writeMem_other (by have := ha.block_sense; omega)]
  split
  · rename_i x d hd
    rw [readMem_writeMem_other (by have := (ha.data x d hd).2.1; omega), readMem_writeMem_other (by have := ha.sense_cmd; omega),
      readMem_writeMem_same]
  · rw [readMem_writeMem_other (by have := ha.sense_cmd; omega), readMem_writeMem_same]

/-- The memory after a device stored its answer through the pointers. -/
def answered (m : Mem) (al : Alloc) (c : Req) (ans : Answer) : Mem :=
  writeMem (writeMem m al.data (ans.data.take (asked c).fromDevice)) al.sense (ans.sense.take 255)

theorem answered_of_ptr (m : Mem) (al : Alloc) (c : Req) (ans : Answer) (ptr : Nat) (hp : ptr = al.data ∨ (asked c).fromDevice = 0) :
    writeMem (writeMem m ptr (ans.data.take (asked c).fromDevice)) al.sense (ans.sense.take 255) = answered m al c ans := by
  unfold answered
  rcases hp with rfl | hp
  · rfl
  · rw [hp, List.take_zero, writeMem_nil, writeMem_nil]

theorem fromDevice_le (c : Req) : (asked c).fromDevice ≤ dataSize c := by
  cases c with
  | read cdb n => exact Nat.le_refl _
  | write cdb d => exact Nat.zero_le _

section
variable {h : Handle} {al : Alloc} {c : Req} {n bits : Nat} (hb : Built h al c n) (hsep : Separate bits (regions al c n))
include hb hsep

theorem answered_sense (m : Mem) (ans : Answer) : readMem (answered (h.install m) al c ans) al.sense 255 = padded 255 ans.sense := by
  obtain ⟨h1, h2, h3, h4, h5, h6⟩ := regions_apart hsep
  have hfd := fromDevice_le c
  apply readMem_padded
  have hse := install_sense (hb.apart hsep) m
  rw [hb.senseAddr, hb.senseInit, zeros_length] at hse
  rw [readMem_writeMem_other (by rw [List.length_take]; omega), hse]

theorem answered_block (m : Mem) (ans : Answer) : readMem (answered (h.install m) al c ans) al.block n = h.block := by
  obtain ⟨h1, h2, h3, h4, h5, h6⟩ := regions_apart hsep
  have hfd := fromDevice_le c
  have hib := install_block h m
  rw [hb.blockAddr, hb.len] at hib
  unfold answered
  rw [readMem_writeMem_other (by rw [List.length_take]; omega), readMem_writeMem_other (by rw [List.length_take]; omega), hib]

theorem answered_data (m : Mem) (ans : Answer) : dataBack c (answered (h.install m) al c ans) al.data = delivered c ans := by
  obtain ⟨h1, h2, h3, h4, h5, h6⟩ := regions_apart hsep
  cases c with
  | read cdb len =>
    simp only [delivered, dataBack]
    by_cases hn : len > 0
    · rw [if_pos hn, if_pos hn]
      unfold answered
      simp only [dataSize] at h5
      rw [readMem_writeMem_other (by rw [List.length_take]; omega)]
      have hin := install_data (hb.apart hsep) m (x := al.data) (d := zeros len.toNat) (by rw [hb.data, Linux.bufOf, if_pos hn])
      rw [zeros_length] at hin
      rw [show (asked (.read cdb len)).fromDevice = len.toNat from rfl, readMem_padded _ _ _ _ hin]
    · rw [if_neg hn, if_neg hn]
  | write cdb d => rfl

theorem installed_cmd (m : Mem) : readMem (h.install m) al.cmd c.cdb.length = c.cdb := by
  have := install_cmd (hb.apart hsep) m
  rwa [hb.cmdAddr, hb.cmd] at this

theorem installed_data (m : Mem) (cdb d : Bytes) (hc : c = .write cdb d) : readMem (h.install m) al.data d.length = d :=
  install_data (hb.apart hsep) m (x := al.data) (d := d) (by rw [hb.data, hc]; rfl)

end

end Verif.Platform
