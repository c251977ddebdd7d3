import Verif.Platform.Win32Lemmas
import Verif.Spec.CLayout
set_option linter.unusedSimpArgs false
/-! # C22: the memory layout of the request blocks -/

namespace Verif.Platform
open Verif.Spec

theorem alignUp_ge (n al : Nat) : n ≤ alignUp n al := by unfold alignUp; split <;> omega

theorem alignUp_least (n al : Nat) (h : 0 < al) : LeastMultiple al n (alignUp n al) := by
  refine ⟨?_, alignUp_ge n al, ?_⟩
  · unfold alignUp
    split
    · exact Nat.dvd_of_mod_eq_zero ‹_›
    · refine ⟨n / al + 1, ?_⟩
      have h1 := Nat.div_add_mod n al
      have h2 := Nat.mod_lt n h
      rw [Nat.mul_add]; omega
  · rintro o' ⟨q, rfl⟩ h'
    unfold alignUp
    split
    · exact h'
    · rename_i hne
      have h1 := Nat.div_add_mod n al
      have h2 := Nat.mod_lt n h
      have h3 : n / al < q := by
        apply Nat.lt_of_not_le
        intro hle
        have := Nat.mul_le_mul_left al hle
        omega
      have := Nat.mul_le_mul_left al h3
      rw [Nat.succ_eq_add_one, Nat.mul_add] at this
      omega

/-- **C22 (a)**: in every structure declaration, packed or not, on every data model, the fields do not overlap: each starts after the
end of all the previous ones, and all lie inside the structure. -/
theorem C22_apart (a : Abi) (pack : Option Nat) (d : Decls) :
    (layout a pack d).Pairwise (fun s t => s.off + s.size ≤ t.off) ∧
    (∀ s ∈ layout a pack d, s.off + s.size ≤ sizeOf a pack d) ∧
    (layout a pack d).map (fun s => s.name) = d.map (fun x => x.1) := by
  have key : ∀ (d : Decls) (o : Nat),
      (place a pack o d).Pairwise (fun s t => s.off + s.size ≤ t.off) ∧
      (∀ s ∈ place a pack o d, o ≤ s.off ∧ s.off + s.size ≤ placeEnd a pack o d) ∧
      (place a pack o d).map (fun s => s.name) = d.map (fun x => x.1) ∧ o ≤ placeEnd a pack o d := by
    intro d
    induction d with
    | nil => intro o; simp [place, placeEnd]
    | cons x r ih =>
      intro o
      obtain ⟨nm, t⟩ := x
      obtain ⟨h1, h2, h3, h4⟩ := ih (alignUp o (fieldAlign a pack t) + t.size a)
      have hge := alignUp_ge o (fieldAlign a pack t)
      simp only [place, placeEnd]
      refine ⟨List.pairwise_cons.2 ⟨fun s hs => (h2 s hs).1, h1⟩, ?_, ?_, by omega⟩
      · intro s hs
        rcases List.mem_cons.1 hs with rfl | hs
        · exact ⟨hge, h4⟩
        · have := h2 s hs; omega
      · simp [h3]
  obtain ⟨h1, h2, h3, h4⟩ := key d 0
  exact ⟨h1, fun s hs => Nat.le_trans (h2 s hs).2 (alignUp_ge ..), h3⟩

/-- The ctypes declaration of a C declaration, field by field. -/
inductive Matches (a : Abi) (m : DataModel) : Decls → CDecl → Prop
  | nil : Matches a m [] []
  | cons {nm t c d cd} (hsize : t.size a = c.bytes m) (halign : t.align a = c.alignment m) (hpos : 0 < c.alignment m)
      (h : Matches a m d cd) : Matches a m ((nm, t) :: d) ((nm, c) :: cd)

/-- **C22 (b)**: whenever a ctypes declaration follows a C declaration field by field, ctypes' layout is the C layout, offsets and size. -/
theorem C22_natural (a : Abi) (m : DataModel) (d : Decls) (cd : CDecl) (h : Matches a m d cd) :
    Natural m 0 cd ((layout a none d).map (fun s => (s.name, s.off, s.size))) ∧
    IsSizeof m cd ((layout a none d).map (fun s => (s.name, s.off, s.size))) (sizeOf a none d) := by
  have key : ∀ o, Natural m o cd ((place a none o d).map (fun s => (s.name, s.off, s.size))) := by
    induction h with
    | nil => intro o; rfl
    | cons hs ha hp _ ih =>
      intro o
      simp only [place, fieldAlign, List.map_cons, Natural]
      refine ⟨alignUp o (CType.align a _), _, by rw [hs], ?_, ih _⟩
      rw [ha]; exact alignUp_least _ _ hp
  have hmax : maxAlign a none d = strictest m cd := by
    clear key
    induction h with
    | nil => rfl
    | cons hs ha hp _ ih => simp only [maxAlign, strictest, fieldAlign, ha, ih]
  have hpos : 0 < strictest m cd := by
    clear key hmax
    induction h with
    | nil => exact Nat.one_pos
    | cons hs ha hp _ ih => simp only [strictest]; omega
  have hend : ∀ (d : Decls) (o : Nat), d ≠ [] → endOf ((place a none o d).map (fun s => (s.name, s.off, s.size))) = placeEnd a none o d := by
    intro d
    induction d with
    | nil => intro o h; exact absurd rfl h
    | cons x r ih =>
      intro o _
      obtain ⟨nm, t⟩ := x
      cases r with
      | nil => rfl
      | cons y r' => exact ih _ (by simp)
  have hend0 : endOf ((layout a none d).map (fun s => (s.name, s.off, s.size))) = placeEnd a none 0 d := by
    cases d with
    | nil => rfl
    | cons x r => exact hend _ 0 (by simp)
  refine ⟨key 0, ?_⟩
  unfold sizeOf IsSizeof
  rw [hmax, hend0]
  exact alignUp_least _ _ hpos

/-- **C22 (Linux)**: `SGIO` is `sg_io_hdr`. -/
theorem C22_linux (l : Bool) :
    Natural LP64 0 sgIoHdr ((layout (lp64 l) none Linux.sgioDecl).map (fun s => (s.name, s.off, s.size))) ∧
    IsSizeof LP64 sgIoHdr ((layout (lp64 l) none Linux.sgioDecl).map (fun s => (s.name, s.off, s.size))) (Linux.sgioSize (lp64 l)) := by
  have h : Matches (lp64 l) LP64 Linux.sgioDecl sgIoHdr := by
    unfold Linux.sgioDecl sgIoHdr
    repeat' (first | exact Matches.nil | refine Matches.cons ?_ ?_ ?_ ?_)
    all_goals first | rfl | decide
  exact C22_natural _ _ _ _ h

/-- **C22 (AIX)**: `sc_passthru`. -/
theorem C22_aix (l : Bool) :
    Natural LP64 0 scPassthru ((layout (lp64 l) none Aix.decl).map (fun s => (s.name, s.off, s.size))) ∧
    IsSizeof LP64 scPassthru ((layout (lp64 l) none Aix.decl).map (fun s => (s.name, s.off, s.size))) (Aix.size (lp64 l)) := by
  have h : Matches (lp64 l) LP64 Aix.decl scPassthru := by
    unfold Aix.decl scPassthru
    repeat' (first | exact Matches.nil | refine Matches.cons ?_ ?_ ?_ ?_)
    all_goals first | rfl | decide
  exact C22_natural _ _ _ _ h

/-- The C layout, computed. -/
def cPlace (m : DataModel) : Nat → CDecl → List (String × Nat × Nat)
  | _, [] => []
  | o, (nm, t) :: r =>
    let off := alignUp o (t.alignment m)
    (nm, off, t.bytes m) :: cPlace m (off + t.bytes m) r

theorem natural_cPlace (m : DataModel) (o : Nat) (d : CDecl) (h : ∀ x ∈ d, 0 < x.2.alignment m) : Natural m o d (cPlace m o d) := by
  induction d generalizing o with
  | nil => rfl
  | cons x r ih =>
    obtain ⟨nm, t⟩ := x
    exact ⟨_, _, rfl, alignUp_least _ _ (h _ (List.mem_cons_self ..)), ih _ (fun y hy => h y (List.mem_cons_of_mem _ hy))⟩

/-- The fields of the Windows structure that the C structure has too. -/
def sptFields (b : Bool) : List (String × Nat × Nat) :=
  ((layout (Win32.W b) (some 1) (Win32.sptDecl (Win32.W b))).filter
    (fun s => s.name ∉ ["padding1", "padding2", "padding3", "sense_buffer"])).map (fun s => (s.name, s.off, s.size))

/-- **C22 (Windows)**: although packed, the structure with its hand-made paddings has every field of `SCSI_PASS_THROUGH_DIRECT` where
natural alignment puts it, on 64-bit and on 32-bit Windows; the sense area starts right at the end of that structure, and
`Length`/`SenseInfoOffset` (the total size less the sense area) are its size. -/
theorem C22_windows (b : Bool) :
    Natural (if b then LLP64 else ILP32) 0 scsiPassThroughDirect (sptFields b) ∧
    IsSizeof (if b then LLP64 else ILP32) scsiPassThroughDirect (sptFields b) (Win32.sptSize (Win32.W b) - 255) ∧
    (Win32.fld (Win32.W b) "sense_buffer").off = Win32.sptSize (Win32.W b) - 255 ∧
    (Win32.fld (Win32.W b) "sense_buffer").size = 255 := by
  have hfields : sptFields b = cPlace (if b then LLP64 else ILP32) 0 scsiPassThroughDirect := by
    cases b
    · unfold sptFields
      rw [show Win32.W false = win32 from rfl, Win32.layoutTable_32]
      decide
    · unfold sptFields
      rw [show Win32.W true = win64 from rfl, Win32.layoutTable_64]
      decide
  refine ⟨?_, ?_, ?_, ?_⟩
  · rw [hfields]
    refine natural_cPlace _ _ _ ?_
    cases b <;> simp [scsiPassThroughDirect, C.alignment, C.bytes, LLP64, ILP32]
  · rw [Win32.sptSize_W, Nat.add_sub_cancel]
    unfold IsSizeof
    rw [hfields]
    cases b
    · exact alignUp_least 44 4 (by decide)
    · exact alignUp_least 52 8 (by decide)
  · rw [Win32.fld_sense, Win32.sptSize_W, Nat.add_sub_cancel]
  · rw [Win32.fld_sense]

/-- The two bytes the C declaration has in place of the ctypes field `uscsi_status`, which covers both. -/
def splitStatus (l : Bool) : List (String × Nat × Nat) → List (String × Nat × Nat)
  | [] => []
  | (nm, o, z) :: r =>
    if nm = "uscsi_status" then
      (if l then ("uscsi_status", o, 1) :: ("uscsi_reason", o + 1, z - 1) :: splitStatus l r
       else ("uscsi_reason", o, 1) :: ("uscsi_status", o + 1, z - 1) :: splitStatus l r)
    else (nm, o, z) :: splitStatus l r

/-- **C22 (Solaris)**: `SCSICMD` is `uscsi_cmd`, its two byte field `uscsi_status` covering the bytes `uscsi_status` and `uscsi_reason`. -/
theorem C22_solaris (l : Bool) :
    Natural LP64 0 (uscsiCmd l) (splitStatus l ((layout (lp64 l) none Solaris.decl).map (fun s => (s.name, s.off, s.size)))) ∧
    IsSizeof LP64 (uscsiCmd l)
      (splitStatus l ((layout (lp64 l) none Solaris.decl).map (fun s => (s.name, s.off, s.size)))) (Solaris.size (lp64 l)) := by
  have h : splitStatus l ((layout (lp64 l) none Solaris.decl).map (fun s => (s.name, s.off, s.size))) = cPlace LP64 0 (uscsiCmd l) := by
    rw [Solaris.layoutTable]
    cases l <;> decide
  rw [h]
  constructor
  · refine natural_cPlace _ _ _ ?_
    cases l <;> simp [uscsiCmd, C.alignment, C.bytes, LP64]
  · rw [Solaris.sizeValue]
    have := alignUp_least 64 8 (by decide)
    cases l <;> exact this

end Verif.Platform
