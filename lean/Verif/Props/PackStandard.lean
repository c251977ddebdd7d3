import Verif.Props.PackResponses
import Verif.Props.Responses
/-!
# C114: the bytes packed are those of the standard
-/

namespace Verif.Parse
open Verif

/-- Packing integer fields does not depend on how they will be read. -/
theorem packObject_same (L L' : BufLib) (Lb : Lib) (fs : List UField) (attrs : List (String × Int)) : packObject L Lb fs [] attrs = packObject L' Lb fs [] attrs := rfl

/-- **C114** (the reservation): the standard finds the values in the bytes. -/
theorem C114_reservation_standard (L : BufLib) (Lb : Lib) {attrs : List (String × Int)} {num : String → Int} (h : Holding reservationFields [] attrs num) :
    ∃ out, packObject L Lb reservationFields [] attrs = .ok out ∧ out.length = 24 ∧ Spec.readReservation out = shown reservationFields num := by
  obtain ⟨out, ho, hl, hr⟩ := C114_reservation L Lb h
  have h1 := hr []
  rw [List.append_nil, C35_read_reservation L.sg out (by omega)] at h1
  injection h1 with h1
  injection h1 with h1
  exact ⟨out, ho, hl, h1⟩

/-- **C114** (capabilities): the standard finds the values in the bytes. -/
theorem C114_capabilities_standard (L : BufLib) (Lb : Lib) {attrs : List (String × Int)} {num : String → Int} (h : Holding capabilitiesFields [] attrs num) :
    ∃ out, packObject L Lb capabilitiesFields [] attrs = .ok out ∧ out.length = 8 ∧ Spec.reportCapabilities out = shown capabilitiesFields num := by
  obtain ⟨out, ho, hl, hr⟩ := C114_capabilities L Lb h
  have h1 := hr []
  rw [List.append_nil, C35_report_capabilities L.sg out (by omega)] at h1
  injection h1 with h1
  injection h1 with h1
  exact ⟨out, ho, hl, h1⟩

/-- **C114** (the registered keys): the bytes are those of the standard. -/
theorem C114_keys_standard (L : BufLib) (Lb : Lib) (blob : Nat → Bytes → Py Bytes) {attrs : List (String × Int)} {num : String → Int} (h : Holding prHeader [] attrs num)
    (keys : List Int) (hk : ∀ v ∈ keys, 0 ≤ v ∧ v < 2 ^ 64) (hn : num "additional_length" = 8 * keys.length) :
    packKeys L Lb blob attrs keys = .ok (Spec.readKeys (num "pr_generation").toNat (keys.map Int.toNat)) := by
  obtain ⟨hd, ho, hr, hl⟩ := object_eq L Lb (by decide) h
  have hlen := hl 8 (by decide) (by decide)
  have hadd : attrs.lookup "additional_length" = some (num "additional_length") := h.ints (.u "additional_length" (.bytes 4 8)) (by simp [prHeader])
  have hil := ints_length 8 keys
  have hc : 8 ≤ (8 + num "additional_length").toNat ∧ (keys.flatMap fun v => be 8 v.toNat).length = (8 + num "additional_length").toNat - 8 := by
    rw [hil, hn]; omega
  have h1 := (hr []).1
  rw [List.append_nil, prHeader_eq L.sg hd (by omega)] at h1
  have h2 : Spec.prHeader hd = shown prHeader num := by injection h1
  simp only [Spec.prHeader, shown, prHeader, List.map_cons, List.map_nil, UField.name, List.cons.injEq, Prod.mk.injEq, true_and, and_true] at h2
  have hh : hd = be 4 (num "pr_generation").toNat ++ be 4 (8 * keys.length) := by
    rw [← h2.1, Int.toNat_natCast, show 8 * keys.length = Spec.num hd 4 4 by have := h2.2; omega]
    rw [← beNat_slice hd 0 4 (by omega), ← beNat_slice hd 4 4 (by omega), be_beNat' _ (by simp [slice, hlen]), be_beNat' _ (by simp [slice, hlen])]
    simp [slice, List.take_of_length_le (Nat.le_of_eq hlen)]
  simp only [packKeys, ho, fieldOf, hadd, packInts_eq Lb 8 keys hk, packBlob, if_pos hc, bind, Except.bind]
  have hp := putBytes_end hd (keys.flatMap fun v => be 8 v.toNat)
  rw [hlen] at hp
  rw [hp, hh, Spec.readKeys, List.length_map, List.flatMap_map]

/-- **C114** (operating parameters of copies): the standard finds the values in the bytes. -/
theorem C114_copy_standard (L : BufLib) (Lb : Lib) {attrs : List (String × Int)} {num : String → Int} (h : Holding receiveCopyFields.dropLast [] attrs num)
    (ds : List Int) (hd : ∀ v ∈ ds, 0 ≤ v ∧ v < 256) (hn : ds.length < 256) :
    ∃ out, packReceiveCopy L Lb attrs ds = .ok out ∧ out.length = 44 + Spec.byteAt out 43 ∧
      Spec.receiveCopy out = shown receiveCopyFields.dropLast num ++ [("implemented_descriptor_list_length", (ds.length : Int))] ∧
      (List.range (Spec.byteAt out 43)).map (fun k => Spec.byteAt out (44 + k)) = ds.map Int.toNat := by
  obtain ⟨out, ho, hl, hr⟩ := C114_copy L Lb h ds hd hn
  have h1 := hr []
  rw [List.append_nil] at h1
  have hb : Spec.byteAt out 43 = ds.length := by
    have h2 := h1
    unfold receiveCopy at h2
    rw [unpackFields_eq L.sg _ _ (by simp [receiveCopyFields, UField.ref, Ref.Ok]) (by simp [receiveCopyFields, fieldsEnd, UField.ref, Ref.stop]; omega)] at h2
    have hm : receiveCopyFields.map (fun f => (f.name, fieldVal L.sg out f)) = Spec.receiveCopy out := by
      simp only [receiveCopyFields, List.map_cons, List.map_nil, UField.name, fieldVal, refNum, intValue, Nat.reduceSub, num_one]; rfl
    rw [hm] at h2
    simp only [bind, Except.bind, unpackAll_u8, Except.ok.injEq, ReceiveCopy.mk.injEq] at h2
    have h3 := congrArg List.getLast? h2.1
    simp only [List.getLast?_append, List.getLast?_singleton, Option.some_or] at h3
    simp [Spec.receiveCopy] at h3
    omega
  rw [C56_receive_copy L.sg out (by omega), Except.ok.injEq, ReceiveCopy.mk.injEq] at h1
  exact ⟨out, ho, by omega, h1⟩

theorem packObjects_same (L L' : BufLib) (Lb : Lib) (fs : List UField) (os : List (List (String × Int))) : packObjects L Lb fs os = packObjects L' Lb fs os := by
  induction os with
  | nil => rfl
  | cons o os ih => simp only [packObjects, packObject_same L L' Lb fs o, ih]

theorem packGroup_same (L L' : BufLib) (Lb : Lib) (g : TargetPortGroup) : packGroup L Lb g = packGroup L' Lb g := by
  simp only [packGroup, packObject_same L L', packObjects_same L L']

theorem group_standard (L : BufLib) (Lb : Lib) (g : Group) (h : g.Fine) :
    ∃ d, packGroup L Lb g.made = .ok d ∧ d.length = 8 + 4 * g.ports.length ∧ Spec.IsTargetPortGroup d ∧ groupObject d = g.made := by
  obtain ⟨d, ho, hl, hr⟩ := group_eq { L with sg := false } Lb g h
  have h1 := hr []
  rw [List.append_nil] at h1
  have hb : (Spec.byteAt d 7 : Int) = g.ports.length := by
    have h2 := h1
    unfold targetPortGroup at h2
    rw [unpackFields_eq false _ _ (by simp [targetPortGroupFields, UField.ref, Ref.Ok]) (by simp [targetPortGroupFields, fieldsEnd, UField.ref, Ref.stop]; omega)] at h2
    simp only [bind, Except.bind] at h2
    split at h2
    · cases h2
    · simp only [Except.ok.injEq, Prod.mk.injEq, Group.made, TargetPortGroup.mk.injEq] at h2
      have h3 := congrArg (fun l => get l "target_port_count") h2.1.1
      have hc := shown_lookup (f := .i "target_port_count" (.bytes 7 8)) g.num (fs := targetPortGroupFields) (by simp [targetPortGroupFields])
      simp only [UField.name] at hc
      simp only [get, hc, Option.getD_some, h.count] at h3
      rw [← h3, ← fieldVal_byte false d "target_port_count" 7 (by simp)]
      simp [targetPortGroupFields, UField.name, List.lookup]
  have hd : Spec.IsTargetPortGroup d := ⟨by omega, by omega⟩
  refine ⟨d, by rw [← ho]; exact packGroup_same L _ Lb g.made, hl, hd, ?_⟩
  have h3 := targetPortGroup_at false d [] hd (by simp)
  rw [List.append_nil, h1] at h3
  simp only [Except.ok.injEq, Prod.mk.injEq] at h3
  exact h3.1.symm

theorem groups_standard (L : BufLib) (Lb : Lib) (gs : List Group) (h : ∀ g ∈ gs, g.Fine) :
    ∃ ds : List Bytes, packGroups L Lb (gs.map Group.made) = .ok ds.flatten ∧ ds.flatten.length = groupsSize gs ∧ (∀ d ∈ ds, Spec.IsTargetPortGroup d) ∧
      ds.map groupObject = gs.map Group.made := by
  induction gs with
  | nil => exact ⟨[], rfl, rfl, nofun, rfl⟩
  | cons g gs ih =>
    obtain ⟨ds, h2, l2, a2, e2⟩ := ih fun q hq => h q (by simp [hq])
    obtain ⟨d, h1, l1, a1, e1⟩ := group_standard L Lb g (h g (by simp))
    refine ⟨d :: ds, ?_, by simp only [List.flatten_cons, List.length_append, l1, l2, groupsSize, List.map_cons, List.sum_cons], ?_, by simp only [List.map_cons, e1, e2]⟩
    · simp only [List.map_cons, packGroups, h1, h2, bind, Except.bind, List.flatten_cons]
    · intro x hx
      rcases List.mem_cons.1 hx with rfl | hx
      · exact a1
      · exact a2 x hx

/-- **C114** (target port groups, the format without a header): the bytes are a response of the standard with these groups and ports. -/
theorem C114_groups_standard (L : BufLib) (Lb : Lib) (blob : Nat → Bytes → Py Bytes) (gs : List Group) (h : ∀ g ∈ gs, g.Fine) (hn : groupsSize gs < 2 ^ 31) :
    ∃ ds : List Bytes, packRtpg L Lb blob false ⟨[("data_length", groupsSize gs)], gs.map Group.made⟩ = .ok (Spec.rtpgLengthOnly ds) ∧
      (∀ d ∈ ds, Spec.IsTargetPortGroup d) ∧ ds.map groupObject = gs.map Group.made := by
  obtain ⟨ds, h2, l2, a2, e2⟩ := groups_standard L Lb gs h
  have hh : Holding [.i "data_length" (.bytes 0 4)] [] [("data_length", (groupsSize gs : Int))] (fun _ => (groupsSize gs : Int)) := by
    refine shown_holding (fs := [.i "data_length" (.bytes 0 4)]) (num := fun _ => (groupsSize gs : Int)) fun f hf => ?_
    simp only [List.mem_singleton] at hf
    subst hf
    exact ⟨by omega, by simp only [Nat.reduceMul, Nat.reduceSub]; omega⟩
  obtain ⟨o1, h1, r1, l1⟩ := object_eq { L with sg := false } Lb (by decide) hh
  have h1' : packObject L Lb [.i "data_length" (.bytes 0 4)] [] [("data_length", (groupsSize gs : Int))] = .ok o1 := h1
  have l1 := l1 4 (by decide) (by decide)
  have hv := (r1 []).1
  rw [List.append_nil, unpackFields_eq false _ _ (by simp [UField.ref, Ref.Ok]) (by simp [fieldsEnd, UField.ref, Ref.stop]; omega)] at hv
  simp only [List.map_cons, List.map_nil, UField.name, shown, Except.ok.injEq, List.cons.injEq, Prod.mk.injEq, true_and, and_true] at hv
  have hv2 := fieldVal_num false o1 "data_length" 0 4 (by decide) (by simp)
  simp only [Nat.zero_add] at hv2
  rw [hv2] at hv
  have hb : o1 = be 4 ds.flatten.length := by
    rw [l2, ← show Spec.num o1 0 4 = groupsSize gs by omega]
    rw [← beNat_slice o1 0 4 (by omega), be_beNat' _ (by simp [slice, l1])]
    simp [slice, List.take_of_length_le (Nat.le_of_eq l1)]
  refine ⟨ds, ?_, a2, e2⟩
  have hc : 4 ≤ ((4 : Nat) + (groupsSize gs : Int)).toNat ∧ ds.flatten.length = ((4 : Nat) + (groupsSize gs : Int)).toNat - 4 := by rw [l2]; omega
  simp only [packRtpg, Bool.false_eq_true, if_false, h1', fieldOf, List.lookup, beq_self_eq_true, h2, packBlob, if_pos hc, bind, Except.bind]
  rw [← l1, putBytes_end, Spec.rtpgLengthOnly, hb]

end Verif.Parse
