import Verif.Props.PackStandard
/-!
# C114: full status of persistent reservations
-/

namespace Verif.Parse
open Verif

/-- A descriptor by the numbers in it, those of its transport, and the rest of the latter. -/
structure Status where
  num : String → Int
  transport : String → Int
  data : Bytes

/-- As an object. -/
def Status.made (s : Status) : FullStatus := ⟨shown fullStatusFields s.num, ⟨shown transportFields s.transport, s.data⟩⟩

/-- The numbers fit, the reserved one is 0, and the length is that of the transport. -/
structure Status.Fine (s : Status) : Prop where
  fit : ∀ f ∈ fullStatusFields, f.Holds (s.num f.name)
  fitTransport : ∀ f ∈ transportFields, f.Holds (s.transport f.name)
  reserved : s.transport "reserved_1" = 0
  length : s.num "additional_length" = 1 + s.data.length

/-- Bytes taken by the descriptors. -/
def statusSize (ss : List Status) : Nat := (ss.map fun s => 25 + s.data.length).sum

theorem transport_holding {s : Status} (h : s.Fine) :
    Holding transportFields [] (("reserved_1", 0) :: shown transportFields s.transport ++ [("protocol_identifier", 1), ("format_code", 0)]) s.transport := by
  refine ⟨fun f hf => ?_, nofun, h.fitTransport, nofun⟩
  simp only [transportFields, List.mem_cons, List.not_mem_nil, or_false] at hf
  rcases hf with rfl | rfl | rfl <;> simp [transportFields, shown, UField.name, List.lookup, h.reserved]

theorem status_eq (L : BufLib) (Lb : Lib) (blob : Nat → Bytes → Py Bytes) (s : Status) (h : s.Fine) :
    ∃ d, packFullStatus L Lb blob s.made = .ok d ∧ d.length = 25 + s.data.length ∧ ∀ rest, fullStatus L.sg (d ++ rest) = .ok (s.made, d.length) := by
  obtain ⟨o1, h1, r1, l1⟩ := object_eq L Lb (by decide) (shown_holding h.fit)
  have l1 := l1 24 (by decide) (by decide)
  obtain ⟨o2, h2, r2, l2⟩ := object_eq L Lb (by decide) (transport_holding h)
  have l2 := l2 1 (by decide) (by decide)
  have hp2 := putBytes_end o2 s.data
  rw [l2] at hp2
  have hl2 : (o2 ++ s.data).length = 1 + s.data.length := by rw [List.length_append, l2]
  have hlen : (o1 ++ (o2 ++ s.data)).length = 25 + s.data.length := by rw [List.length_append, l1, hl2]; omega
  have hadd : (shown fullStatusFields s.num).lookup "additional_length" = some (s.num "additional_length") :=
    shown_lookup (f := .u "additional_length" (.bytes 20 24)) s.num (by simp [fullStatusFields])
  have hc : 24 ≤ (s.num "additional_length" + 24).toNat ∧ (o2 ++ s.data).length = (s.num "additional_length" + 24).toNat - 24 := by
    rw [hl2, h.length]; omega
  have hp1 := putBytes_end o1 (o2 ++ s.data)
  rw [l1] at hp1
  refine ⟨o1 ++ (o2 ++ s.data), ?_, hlen, fun rest => ?_⟩
  · simp only [packFullStatus, Status.made, packTransport, h1, h2, fieldOf, hadd, hp2, packBlob, if_pos hc, hp1, bind, Except.bind]
  · have hr1 := (r1 ((o2 ++ s.data) ++ rest)).1
    have hr2 := (r2 s.data).1
    have hg : (get (shown fullStatusFields s.num) "additional_length").toNat = (o2 ++ s.data).length := by
      rw [get, hadd, Option.getD_some, h.length, hl2]; omega
    have hsl := slice_mid 24 o1 (o2 ++ s.data) rest l1
    rw [List.append_nil] at hsl
    have hdr : (o2 ++ s.data).drop 1 = s.data := by rw [← l2, List.drop_left]
    rw [List.append_assoc]
    unfold fullStatus
    rw [hr1]
    simp only [bind, Except.bind, hg]
    rw [Nat.add_comm _ 24, hsl]
    unfold transportId
    have hr2' : unpackFields L.sg [.u "protocol_identifier" (.bits 0 0 4), .u "reserved_1" (.bits 0 4 6), .u "format_code" (.bits 0 6 8)] (o2 ++ s.data) =
      .ok (shown transportFields s.transport) := hr2
    rw [hr2']
    simp only [bind, Except.bind, hdr, Status.made, hlen, hl2]
    congr 2
    omega

theorem statuses_eq (L : BufLib) (Lb : Lib) (blob : Nat → Bytes → Py Bytes) (ss : List Status) (h : ∀ s ∈ ss, s.Fine) :
    ∃ ds : List Bytes, packFullStatuses L Lb blob (ss.map Status.made) = .ok ds.flatten ∧ ds.flatten.length = statusSize ss ∧
      unpackAll (fullStatus L.sg) ds.flatten = .ok (ss.map Status.made) ∧ (∀ d ∈ ds, Spec.IsFullStatus d) ∧ ds.map fullStatusObject = ss.map Status.made := by
  induction ss with
  | nil => exact ⟨[], rfl, rfl, by simp [unpackAll], nofun, rfl⟩
  | cons s ss ih =>
    obtain ⟨ds, h2, l2, r2, a2, e2⟩ := ih fun q hq => h q (by simp [hq])
    obtain ⟨d, h1, l1, r1⟩ := status_eq L Lb blob s (h s (by simp))
    have hd : Spec.num d 20 4 = 1 + s.data.length := by
      have h3 := r1 []
      rw [List.append_nil] at h3
      unfold fullStatus at h3
      rw [unpackFields_eq L.sg _ _ (by simp [fullStatusFields, UField.ref, Ref.Ok]) (by simp [fullStatusFields, fieldsEnd, UField.ref, Ref.stop]; omega)] at h3
      simp only [bind, Except.bind] at h3
      split at h3
      · cases h3
      · simp only [Except.ok.injEq, Prod.mk.injEq] at h3
        have h4 := h3.2
        simp [fullStatusFields, UField.name, List.lookup, get, fieldVal, refNum] at h4
        omega
    have a1 : Spec.IsFullStatus d := ⟨by rw [hd, l1]; omega, by omega⟩
    have e1 : fullStatusObject d = s.made := by
      have h3 := fullStatus_at L.sg d [] a1
      rw [r1 []] at h3
      simp only [Except.ok.injEq, Prod.mk.injEq] at h3
      exact h3.1.symm
    refine ⟨d :: ds, ?_, by simp only [List.flatten_cons, List.length_append, l1, l2, statusSize, List.map_cons, List.sum_cons], ?_, ?_, by simp only [List.map_cons, e1, e2]⟩
    · simp only [List.map_cons, packFullStatuses, h1, h2, bind, Except.bind, List.flatten_cons]
    · rw [List.flatten_cons]
      exact unpackAll_cons _ d _ _ _ (by omega) (r1 _) r2
    · intro x hx
      rcases List.mem_cons.1 hx with rfl | hx
      · exact a1
      · exact a2 x hx

/-- **C114** (full status): the bytes are a response of the standard with these descriptors, and read back as they were built. -/
theorem C114_full_status (L : BufLib) (Lb : Lib) (blob : Nat → Bytes → Py Bytes) (generation : Nat) (hg : generation < 2 ^ 32) (ss : List Status) (hne : ss ≠ [])
    (h : ∀ s ∈ ss, s.Fine) (hn : statusSize ss < 2 ^ 32) :
    let attrs : List (String × Int) := [("pr_generation", (generation : Int)), ("additional_length", (statusSize ss : Int))]
    ∃ ds : List Bytes, packReadFullStatus L Lb blob attrs (ss.map Status.made) = .ok (Spec.readFullStatus generation ds) ∧
      (∀ d ∈ ds, Spec.IsFullStatus d) ∧ ds.map fullStatusObject = ss.map Status.made ∧
      ∀ rest, prin L.sg 3 (Spec.readFullStatus generation ds ++ rest) = .ok (.fullStatus ⟨attrs, some (ss.map Status.made)⟩) := by
  intro attrs
  obtain ⟨ds, h2, l2, r2, a2, e2⟩ := statuses_eq L Lb blob ss h
  have hh : Holding prHeader [] attrs (fun s => if s = "pr_generation" then generation else statusSize ss) := by
    refine shown_holding (fs := prHeader) (num := fun s => if s = "pr_generation" then (generation : Int) else statusSize ss) fun f hf => ?_
    simp only [prHeader, List.mem_cons, List.not_mem_nil, or_false] at hf
    rcases hf with rfl | rfl
    · exact ⟨by simp [UField.name], by simp only [UField.name, UField.ref, Ref.width, if_pos]; omega⟩
    · exact ⟨by simp [UField.name], by simp [UField.name, UField.ref, Ref.width]; omega⟩
  obtain ⟨hd, ho, hr, hl⟩ := object_eq L Lb (by decide) hh
  have hlen := hl 8 (by decide) (by decide)
  have h1 := (hr []).1
  rw [List.append_nil, prHeader_eq L.sg hd (by omega)] at h1
  have h3 : Spec.prHeader hd = attrs := by injection h1
  simp only [Spec.prHeader, attrs, List.cons.injEq, Prod.mk.injEq, true_and, and_true] at h3
  have hb : hd = be 4 generation ++ be 4 (statusSize ss) := by
    rw [← show Spec.num hd 0 4 = generation by omega, ← show Spec.num hd 4 4 = statusSize ss by omega, ← beNat_slice hd 0 4 (by omega),
      ← beNat_slice hd 4 4 (by omega), be_beNat' _ (by simp [slice, hlen]), be_beNat' _ (by simp [slice, hlen])]
    simp [slice, List.take_of_length_le (Nat.le_of_eq hlen)]
  have hc : 8 ≤ (8 + (statusSize ss : Int)).toNat ∧ ds.flatten.length = (8 + (statusSize ss : Int)).toNat - 8 := by rw [l2]; omega
  have hp := putBytes_end hd ds.flatten
  rw [hlen, hb, ← l2] at hp
  have hlk : attrs.lookup "additional_length" = some (statusSize ss : Int) := rfl
  have hdn : ds ≠ [] := by
    rintro rfl
    simp at e2
    exact hne e2
  refine ⟨ds, ?_, a2, e2, fun rest => ?_⟩
  · simp only [packReadFullStatus, ho, fieldOf, hlk, h2, packBlob, if_pos hc, bind, Except.bind]
    rw [hb, ← l2, hp, Spec.readFullStatus]
  · obtain ⟨r, hr, hd1, hd2⟩ := C35_read_full_status L.sg generation ds rest hg a2 hdn (by omega)
    rw [hr, show r = ⟨r.attrs, r.descriptors⟩ from rfl, hd1, hd2, e2, l2]

/-- **C114** (transports): a transport with some of its numbers set, the reserved one to whatever, is packed as the byte of the standard, with protocol 1 and format 0
where they were not set, and the rest behind it; it reads back so. -/
theorem C114_transport (L : BufLib) (Lb : Lib) (protocol format : Option Nat) (hp : ∀ p, protocol = some p → p < 16) (hf : ∀ f, format = some f → f < 4)
    (reserved : List (String × Int)) (hr : reserved = [] ∨ ∃ v, reserved = [("reserved_1", v)]) (data : Bytes) :
    ∃ b, packTransport L Lb ⟨(protocol.map fun p : Nat => ("protocol_identifier", (p : Int))).toList ++ reserved ++
      (format.map fun f : Nat => ("format_code", (f : Int))).toList, data⟩ = .ok (b :: data) ∧
      b.toNat = protocol.getD 1 + 64 * format.getD 0 ∧
      ∀ sg, transportId sg (b :: data) = .ok ⟨[("protocol_identifier", (protocol.getD 1 : Nat)), ("reserved_1", 0), ("format_code", (format.getD 0 : Nat))], data⟩ := by
  have hh : Holding transportFields [] (("reserved_1", 0) :: ((protocol.map fun p : Nat => ("protocol_identifier", (p : Int))).toList ++ reserved ++
      (format.map fun f : Nat => ("format_code", (f : Int))).toList) ++ [("protocol_identifier", 1), ("format_code", 0)])
      (fun s => if s = "protocol_identifier" then (protocol.getD 1 : Nat) else if s = "format_code" then (format.getD 0 : Nat) else 0) := by
    refine ⟨fun f hf => ?_, nofun, fun f hf => ?_, nofun⟩
    · simp only [transportFields, List.mem_cons, List.not_mem_nil, or_false] at hf
      rcases hf with rfl | rfl | rfl <;> rcases hr with rfl | ⟨v, rfl⟩ <;> cases protocol <;> cases format <;> simp [UField.name, List.lookup]
    · simp only [transportFields, List.mem_cons, List.not_mem_nil, or_false] at hf
      rcases hf with rfl | rfl | rfl
      · refine ⟨by simp [UField.name], ?_⟩
        simp only [UField.name, UField.ref, Ref.width]
        cases protocol with
        | none => simp
        | some p => have := hp p rfl; simp; omega
      · exact ⟨by simp [UField.name], by simp [UField.name, UField.ref, Ref.width]⟩
      · refine ⟨by simp [UField.name], ?_⟩
        simp only [UField.name, UField.ref, Ref.width]
        cases format with
        | none => simp
        | some p => have := ‹∀ f, some p = some f → f < 4› p rfl; simp; omega
  obtain ⟨o, h1, r, l⟩ := object_eq L Lb (by decide) hh
  have l := l 1 (by decide) (by decide)
  obtain ⟨b, rfl⟩ := List.length_eq_one_iff.1 l
  have hput := putBytes_end [b] data
  rw [l] at hput
  have hd := (r data).1
  have hu : unpackFields L.sg transportFields (b :: data) =
      .ok [("protocol_identifier", ((b.toNat % 16 : Nat) : Int)), ("reserved_1", ((b.toNat / 16 % 4 : Nat) : Int)), ("format_code", ((b.toNat / 64 % 4 : Nat) : Int))] := by
    simp [transportFields, unpackFields, UField.value, UField.name, Ref.read, getBits, bind, Except.bind]
  have hd' : unpackFields L.sg transportFields (b :: data) =
      .ok [("protocol_identifier", (protocol.getD 1 : Nat)), ("reserved_1", 0), ("format_code", (format.getD 0 : Nat))] := hd
  have hv := hu.symm.trans hd'
  simp only [Except.ok.injEq, List.cons.injEq, Prod.mk.injEq, true_and, and_true] at hv
  have hb := b.toNat_lt
  refine ⟨b, ?_, by omega, fun sg => ?_⟩
  · simp only [packTransport, h1, hput, bind, Except.bind]
    rfl
  · have hs : unpackFields sg transportFields (b :: data) = unpackFields L.sg transportFields (b :: data) := rfl
    rw [hd'] at hs
    simp only [transportFields] at hs
    simp only [transportId, hs, bind, Except.bind, List.drop_one, List.tail_cons]

example : (∀ p, (none : Option Nat) = some p → p < 16) ∧ (∀ f, some 1 = some f → f < 4) ∧
    ([("reserved_1", 3)] = [] ∨ ∃ v : Int, [("reserved_1", (3 : Int))] = [("reserved_1", v)]) :=
  ⟨nofun, fun f h => by cases h; decide, .inr ⟨_, rfl⟩⟩

/-- A registration over FC. -/
def sampleStatus : Status := ⟨fun s => if s = "additional_length" then 24 else 1, fun _ => 0, zeros 23⟩

theorem sampleStatus_fine : sampleStatus.Fine := by
  refine ⟨?_, ?_, rfl, rfl⟩
  · have : ∀ f ∈ fullStatusFields, f.holds (sampleStatus.num f.name) = true := by decide
    exact fun f hf => holds_iff.1 (this f hf)
  · have : ∀ f ∈ transportFields, f.holds 0 = true := by decide
    exact fun f hf => holds_iff.1 (this f hf)

example : (∀ s ∈ [sampleStatus], s.Fine) ∧ statusSize [sampleStatus] = 48 :=
  ⟨fun g hg => List.mem_singleton.1 hg ▸ sampleStatus_fine, by decide⟩

end Verif.Parse
