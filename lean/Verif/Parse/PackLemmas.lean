import Verif.Props.Instruct
import Verif.Parse.InquiryLemmas
/-! # Lemmas for packing pages and reading them back -/
set_option linter.unusedSimpArgs false

namespace Verif.Parse
open Verif

/-- Values that fit their fields. -/
def Fits (fs : List (String × Ref × Int)) : Prop := ∀ f ∈ fs, 0 ≤ f.2.2 ∧ f.2.2 < 2 ^ f.2.1.width

theorem packAt_ok (L : Lib) (fs : List (String × Ref × Int)) (buf : Bytes) (h : Fits fs) : ∃ out, packAt L fs buf = .ok out := by
  induction fs generalizing buf with
  | nil => exact ⟨buf, rfl⟩
  | cons f fs ih =>
    obtain ⟨n, r, v⟩ := f
    obtain ⟨h0, h1⟩ := h (n, r, v) (by simp)
    obtain ⟨m, rfl⟩ := Int.eq_ofNat_of_zero_le h0
    simp only at h1
    simp only [packAt, L.enc_ok r.width m (by exact_mod_cast h1), bind, Except.bind]
    exact ih _ (fun g hg => h g (by simp [hg]))

/-- Reading integer fields of a buffer that holds them. -/
theorem unpackFields_reads (sg : Bool) (gs : List (String × Ref × Int)) (buf : Bytes)
    (h : ∀ f ∈ gs, 0 ≤ f.2.2 ∧ f.2.1.read buf = .ok f.2.2.toNat) :
    unpackFields sg (gs.map fun f => UField.u f.1 f.2.1) buf = .ok (gs.map fun f => (f.1, f.2.2)) := by
  induction gs with
  | nil => rfl
  | cons f fs ih =>
    obtain ⟨n, r, v⟩ := f
    obtain ⟨h0, h1⟩ := h (n, r, v) (by simp)
    simp only at h0 h1
    simp only [List.map_cons, unpackFields, UField.value, UField.name, h1, ih (fun g hg => h g (by simp [hg])), bind, Except.bind,
      Int.toNat_of_nonneg h0]

/-- Packing fields at disjoint places and reading some of them back, more bytes following. -/
theorem unpackFields_packed (sg : Bool) (L : Lib) (fs gs : List (String × Ref × Int)) (out rest : Bytes)
    (hw : ∀ f ∈ fs, f.2.1.WellFormed) (hd : fs.Pairwise fun f g => f.2.1.Disjoint g.2.1) (hf : Fits fs) (hg : ∀ g ∈ gs, g ∈ fs)
    (h : packAt L fs [] = .ok out) :
    unpackFields sg (gs.map fun f => UField.u f.1 f.2.1) (out ++ rest) = .ok (gs.map fun f => (f.1, f.2.2)) := by
  have hr := (C48_buffer L fs out rest hw hd h).1
  apply unpackFields_reads
  intro g hm
  have := hf g (hg g hm)
  exact ⟨this.1, hr g (hg g hm) this.1 this.2⟩

theorem peripheral_bits (sg : Bool) (b : Bytes) :
    unpackFields sg peripheralFields b = unpackFields sg [.u "type" (.bits 0 0 5), .u "qualifier" (.bits 0 5 8)] b := rfl

theorem putBytes_end (b t : Bytes) : putBytes b b.length t = b ++ t := by
  simp [putBytes, grow, zeros, setRange]

/-- First bit of a reference, counted from the least significant bit of byte 0, and one past the last. -/
def startBit : Ref → Nat
  | .bytes lo _ => 8 * lo
  | .bits i lo _ => 8 * i + lo

def stopBit : Ref → Nat
  | .bytes _ hi => 8 * hi
  | .bits i _ hi => 8 * i + hi

theorem disjoint_of_bits (r s : Ref) (hr : r.WellFormed) (hs : s.WellFormed) (h : stopBit r ≤ startBit s ∨ stopBit s ≤ startBit r) :
    r.Disjoint s := by
  intro i b hb
  cases r <;> cases s <;> simp only [Ref.WellFormed, stopBit, startBit, Ref.Has] at * <;> omega

theorem pairwise_disjoint (fs : List (String × Ref × Int)) (rs : List Ref) (hrs : fs.map (fun f => f.2.1) = rs)
    (hw : ∀ r ∈ rs, r.WellFormed) (h : rs.Pairwise fun r s => stopBit r ≤ startBit s ∨ stopBit s ≤ startBit r) :
    fs.Pairwise fun f g => f.2.1.Disjoint g.2.1 := by
  subst hrs
  rw [List.pairwise_map] at h
  refine List.Pairwise.imp_of_mem ?_ h
  intro f g hf hg hfg
  exact disjoint_of_bits _ _ (hw _ (List.mem_map.2 ⟨f, hf, rfl⟩)) (hw _ (List.mem_map.2 ⟨g, hg, rfl⟩)) hfg

instance (r : Ref) : Decidable r.WellFormed := by cases r <;> unfold Ref.WellFormed <;> infer_instance

theorem packed_length (L : Lib) (fs : List (String × Ref × Int)) (out : Bytes) (n : Nat) (hw : ∀ f ∈ fs, f.2.1.WellFormed)
    (hd : fs.Pairwise fun f g => f.2.1.Disjoint g.2.1) (h : packAt L fs [] = .ok out) (hn : ∀ f ∈ fs, f.2.1.stop ≤ n)
    (hm : ∃ f ∈ fs, f.2.1.stop = n) : out.length = n := by
  obtain ⟨_, h2, h3⟩ := C48_buffer L fs out [] hw hd h
  obtain ⟨f, hf, hfn⟩ := hm
  obtain ⟨g, hg, hgn⟩ := h3 (by intro he; rw [he] at hf; cases hf)
  have := h2 f hf
  have := hn g hg
  omega

/-- The header of a VPD page. -/
theorem header_roundtrip (Lb : Lib) (type qualifier pageCode n : Int) (lo : Nat) (hlo : lo = 2 ∨ lo = 3) (ht : 0 ≤ type ∧ type < 32)
    (hq : 0 ≤ qualifier ∧ qualifier < 8) (hp : 0 ≤ pageCode ∧ pageCode < 256) (hn : 0 ≤ n ∧ n < 2 ^ (8 * (4 - lo))) :
    ∃ out, packAt Lb [("type", .bits 0 0 5, type), ("qualifier", .bits 0 5 8, qualifier), ("page_code", .bytes 1 2, pageCode),
      ("page_length", .bytes lo 4, n)] [] = .ok out ∧ out.length = 4 ∧
      ∀ (L : BufLib) rest, fixedPage L [.u "page_code" (.bytes 1 2), .u "page_length" (.bytes lo 4)] [] (out ++ rest) =
        .ok ⟨[("type", type), ("qualifier", qualifier)], [("page_code", pageCode), ("page_length", n)]⟩ := by
  generalize hfs : [("type", Ref.bits 0 0 5, type), ("qualifier", .bits 0 5 8, qualifier), ("page_code", .bytes 1 2, pageCode),
      ("page_length", .bytes lo 4, n)] = fs
  have hw : ∀ f ∈ fs, f.2.1.WellFormed := by
    subst hfs; simp [Ref.WellFormed]; omega
  have hd : fs.Pairwise fun f g => f.2.1.Disjoint g.2.1 := by
    refine pairwise_disjoint fs [.bits 0 0 5, .bits 0 5 8, .bytes 1 2, .bytes lo 4] (by subst hfs; rfl) ?_ ?_
    · simp [Ref.WellFormed]; omega
    · simp [stopBit, startBit]; omega
  have hf : Fits fs := by
    subst hfs; simp [Fits, Ref.width]; omega
  obtain ⟨out, ho⟩ := packAt_ok Lb fs [] hf
  refine ⟨out, ho, packed_length Lb fs out 4 hw hd ho (by subst hfs; simp [Ref.stop]) ⟨("page_length", .bytes lo 4, n), by subst hfs; simp, rfl⟩, ?_⟩
  intro L rest
  have h1 := unpackFields_packed L.sg Lb fs [("type", .bits 0 0 5, type), ("qualifier", .bits 0 5 8, qualifier)] out rest hw hd hf
    (by subst hfs; simp) ho
  have h2 := unpackFields_packed L.sg Lb fs [("page_code", .bytes 1 2, pageCode), ("page_length", .bytes lo 4, n)] out rest hw hd hf
    (by subst hfs; simp) ho
  simp only [List.map_cons, List.map_nil] at h1 h2
  unfold fixedPage
  rw [peripheral_bits, h1, h2]
  rfl

end Verif.Parse
