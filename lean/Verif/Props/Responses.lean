import Verif.Parse.SimpleLemmas
/-!
# C35, C37, C38, C39, C56: responses decode to what the device reported

The specification is `Spec/Data.lean` and `Spec/Responses.lean`: positions of the standard's tables.
-/
set_option linter.unusedSimpArgs false

namespace Verif.Parse
open Verif

/-! ## C37 — READ CAPACITY -/

/-- Every response of at least 8 bytes decodes to the two numbers at the standard's positions. -/
theorem C37_capacity10 (b : Bytes) (h : 8 ≤ b.length) : readCapacity10 b = .ok (Spec.readCapacity10 b) := by
  unfold readCapacity10 createFromString
  rw [unpack_eq _ _ (by simp [capacity10Decls, NoConst]) (by simpa [capacity10Decls, structSize, Decl.size] using h)]
  rfl

theorem bitsAt_hi (b : Bytes) (i lo : Nat) (h : lo < 8) : Spec.byteAt b i / 2 ^ lo = Spec.bitsAt b i 7 lo := by
  unfold Spec.bitsAt
  have hb : Spec.byteAt b i < 2 ^ 8 := byte_lt _
  rw [Nat.mod_eq_of_lt]
  exact Nat.div_lt_of_lt_mul (by rw [← Nat.pow_add]; rwa [show lo + (7 + 1 - lo) = 8 by omega])

/-- Every response of at least 32 bytes decodes to the fields at the standard's positions. -/
theorem C37_capacity16 (b : Bytes) (h : 32 ≤ b.length) : readCapacity16 b = .ok (Spec.readCapacity16 b) := by
  unfold readCapacity16 createFromString
  rw [unpack_eq _ _ (by simp [capacity16Decls, NoConst]) (by simpa [capacity16Decls, structSize, Decl.size, bitsWidth, BitDecl.width] using h)]
  simp only [capacity16Decls, fieldsAt, bitsWidth, BitDecl.width, unpackBits, numLE, Spec.readCapacity16, Spec.bitsAt, Spec.bitAt, num_one]
  simp [Nat.div_div_eq_div_mul, bind, Except.bind, numLE]

/-- A response that is too short is refused; it is never completed with invented values. -/
theorem C37_short (b : Bytes) :
    (b.length < 8 → readCapacity10 b = .error .truncated) ∧ (b.length < 32 → readCapacity16 b = .error .truncated) := by
  constructor <;> intro h
  · unfold readCapacity10 createFromString
    rw [unpack_short _ _ (by simp [capacity10Decls, NoConst]) (by simpa [capacity10Decls, structSize, Decl.size] using h)]; rfl
  · unfold readCapacity16 createFromString
    rw [unpack_short _ _ (by simp [capacity16Decls, NoConst]) (by simpa [capacity16Decls, structSize, Decl.size, bitsWidth, BitDecl.width] using h)]
    rfl

/-- The 14-bit lowest aligned address is `256 * msb + lsb`. -/
theorem C37_lowest_aligned (b : Bytes) (h : 32 ≤ b.length) :
    ∃ vs m l, readCapacity16 b = .ok vs ∧ vs.lookup "lowest_aligned_lba_msb" = some m ∧ vs.lookup "lowest_aligned_lba_lsb" = some l ∧
      256 * m + l = Spec.lowestAligned b := by
  refine ⟨_, _, _, C37_capacity16 b h, rfl, rfl, ?_⟩
  have h1 : Spec.byteAt b 14 < 256 := byte_lt _
  have h2 : Spec.byteAt b 15 < 256 := byte_lt _
  simp only [Spec.lowestAligned, Spec.num, Spec.bitsAt]
  simp only [Nat.add_zero, Nat.reduceAdd]
  omega

/-- A disk of 2^31 blocks of 512 bytes. -/
example : readCapacity10 [0x7F, 0xFF, 0xFF, 0xFF, 0, 0, 2, 0] = .ok [("last_logical_block_address", 2 ^ 31 - 1), ("block_length_in_bytes", 512)] := by
  rfl

/-! ## C38 — REPORT LUNS -/

theorem beNat_simpleLun (n : Nat) (h : n < 2 ^ 16) : beNat (Spec.simpleLun n) = n * 2 ^ 48 := by
  unfold Spec.simpleLun
  rw [beNat_append, beNat_be_of_lt (by simpa using h), show (zeros 6).length = 6 from rfl, show beNat (zeros 6) = 0 from rfl]
  simp only [Nat.reducePow, Nat.add_zero]

theorem simpleLuns_value (luns : List Nat) (hl : ∀ n ∈ luns, n < 2 ^ 16) : (luns.map Spec.simpleLun).map beNat = luns.map (· * 2 ^ 48) := by
  induction luns with
  | nil => rfl
  | cons n ns ih =>
    have h1 := ih (fun x hx => hl x (List.mem_cons_of_mem _ hx))
    have h2 := beNat_simpleLun n (hl n List.mem_cons_self)
    rw [List.map_cons, List.map_cons, List.map_cons, h1, h2]

theorem luns_shift (luns : List Nat) : (luns.map (· * 2 ^ 48)).map (· >>> 48) = luns := by
  induction luns with
  | nil => rfl
  | cons n ns ih => rw [List.map_cons, List.map_cons, ih, Nat.shiftRight_eq_div_pow, Nat.mul_div_cancel _ (Nat.pow_pos (by decide))]

theorem luns_check (luns : List Nat) (hl : ∀ n ∈ luns, n < 2 ^ 14) : checkLuns (luns.map (· * 2 ^ 48)) = .ok () := by
  rw [checkLuns_ok]; intro x hx
  obtain ⟨n, hn', rfl⟩ := List.mem_map.1 hx
  have := hl n hn'
  rw [checkLun_ok _ (by omega)]; omega

/-- A complete response all of whose entries use the single level simple format decodes to the numbers, in the device's order. -/
theorem C38_decodes (alloc : Int) (allow : Bool) (reserved rest : Bytes) (luns : List Nat) (ha : 16 ≤ alloc) (hr : reserved.length = 4)
    (hl : ∀ n ∈ luns, n < 2 ^ 14) (hn : 8 * luns.length < 2 ^ 32) :
    ∃ d, reportLuns alloc allow (some (Spec.reportLuns reserved (luns.map Spec.simpleLun) ++ rest)) = .ok (.data d) ∧ d.lunList = luns ∧
      d.lunListLength = 8 * luns.length ∧ d.entries = luns.map (· * 2 ^ 48) := by
  have he := simpleLuns_value luns (fun n h => Nat.lt_trans (hl n h) (by decide))
  have hnorm : normalizeLuns allow (luns.map (· * 2 ^ 48)) = .ok luns := by
    unfold normalizeLuns
    rw [luns_check luns hl, luns_shift]; cases allow <;> simp [bind, Except.bind, pure, Except.pure]
  unfold reportLuns
  rw [if_pos ha]
  have hd := reportLunsData_eq allow reserved (luns.map Spec.simpleLun) rest hr (by simp [Spec.simpleLun]) (by simpa using hn)
  rw [he, hnorm, List.length_map] at hd
  generalize luns.map (· * 2 ^ 48) = es at hd
  simp only [hd, Except.map, bind, Except.bind]
  exact ⟨_, rfl, rfl, rfl, rfl⟩

/-- Soundness of the check: if it is on and a list is returned, every entry of the response is the simple format entry of the number
returned for it. So no entry is altered. -/
theorem C38_sound (alloc : Int) (reserved rest : Bytes) (entries : List Bytes) (d : ReportLunsData) (hr : reserved.length = 4)
    (he : ∀ e ∈ entries, e.length = 8) (hn : 8 * entries.length < 2 ^ 32)
    (h : reportLuns alloc false (some (Spec.reportLuns reserved entries ++ rest)) = .ok (.data d)) :
    entries = d.lunList.map Spec.simpleLun ∧ ∀ n ∈ d.lunList, n < 2 ^ 14 := by
  unfold reportLuns at h
  by_cases ha : alloc ≥ 16
  case neg => rw [if_neg ha] at h; simp only [bind, Except.bind, pyAssert] at h; split at h <;> simp at h
  rw [if_pos ha] at h
  simp only [reportLunsData_eq false reserved entries rest hr he hn] at h
  unfold normalizeLuns at h
  rcases checkLuns_err (entries.map beNat) with hc | hc | hc <;> simp [hc, bind, Except.bind, Except.map] at h
  subst h
  rw [checkLuns_ok] at hc
  simp only [List.map_map]
  have key : ∀ e ∈ entries, beNat e % 2 ^ 48 = 0 ∧ beNat e / 2 ^ 48 < 2 ^ 14 := by
    intro e h1
    have hlt : beNat e < 2 ^ 64 := by have := beNat_lt e; rw [he e h1] at this; simpa using this
    exact (checkLun_ok _ hlt).1 (hc _ (List.mem_map.2 ⟨e, h1, rfl⟩))
  constructor
  · conv => lhs; rw [← List.map_id entries]
    apply List.map_congr_left
    intro e h1
    obtain ⟨k1, k2⟩ := key e h1
    simp only [id, Function.comp_apply, Nat.shiftRight_eq_div_pow]
    apply (be_beNat' e (he e h1)).symm.trans
    have hs : Spec.simpleLun (beNat e / 2 ^ 48) = be 8 (beNat (Spec.simpleLun (beNat e / 2 ^ 48))) := (be_beNat' _ (by simp [Spec.simpleLun])).symm
    rw [hs, beNat_simpleLun _ (by omega)]
    congr 1; omega
  · intro n hn'
    simp only [List.mem_map, Function.comp_apply, Nat.shiftRight_eq_div_pow] at hn'
    obtain ⟨e, h1, rfl⟩ := hn'
    exact (key e h1).2

/-- Two responses for which the same list is returned have the same entries: no two LUNs collide. -/
theorem C38_injective (alloc : Int) (reserved rest reserved' rest' : Bytes) (es es' : List Bytes) (d d' : ReportLunsData)
    (hr : reserved.length = 4) (hr' : reserved'.length = 4) (he : ∀ e ∈ es, e.length = 8) (he' : ∀ e ∈ es', e.length = 8)
    (hn : 8 * es.length < 2 ^ 32) (hn' : 8 * es'.length < 2 ^ 32)
    (h : reportLuns alloc false (some (Spec.reportLuns reserved es ++ rest)) = .ok (.data d))
    (h' : reportLuns alloc false (some (Spec.reportLuns reserved' es' ++ rest')) = .ok (.data d')) (hd : d.lunList = d'.lunList) : es = es' := by
  rw [(C38_sound alloc reserved rest es d hr he hn h).1, (C38_sound alloc reserved' rest' es' d' hr' he' hn' h').1, hd]

/-- An entry of another format: the whole response is refused with one of the two addressing errors. -/
theorem C38_refuses (alloc : Int) (reserved rest : Bytes) (entries : List Bytes) (ha : 16 ≤ alloc) (hr : reserved.length = 4)
    (he : ∀ e ∈ entries, e.length = 8) (hn : 8 * entries.length < 2 ^ 32) (e : Bytes) (hm : e ∈ entries) (hx : ∀ n < 2 ^ 14, e ≠ Spec.simpleLun n) :
    reportLuns alloc false (some (Spec.reportLuns reserved entries ++ rest)) = .error .unsupportedLunAddressing ∨
    reportLuns alloc false (some (Spec.reportLuns reserved entries ++ rest)) = .error .unsupportedAddressingMethod := by
  have hnot : ∀ d, reportLuns alloc false (some (Spec.reportLuns reserved entries ++ rest)) ≠ .ok (.data d) := by
    intro d h
    obtain ⟨h1, h2⟩ := C38_sound alloc reserved rest entries d hr he hn h
    rw [h1] at hm
    obtain ⟨n, h3, h4⟩ := List.mem_map.1 hm
    exact hx n (h2 n h3) h4.symm
  unfold reportLuns at hnot ⊢
  simp only [if_pos ha] at hnot ⊢
  simp only [reportLunsData_eq false reserved entries rest hr he hn] at hnot ⊢
  unfold normalizeLuns at hnot ⊢
  rcases checkLuns_err (entries.map beNat) with hc | hc | hc <;> simp [hc, bind, Except.bind, Except.map] at hnot ⊢

/-- With the check off the first two bytes of every entry are returned, whatever the format. -/
theorem C38_allowed (alloc : Int) (reserved rest : Bytes) (entries : List Bytes) (ha : 16 ≤ alloc) (hr : reserved.length = 4)
    (he : ∀ e ∈ entries, e.length = 8) (hn : 8 * entries.length < 2 ^ 32) :
    ∃ d, reportLuns alloc true (some (Spec.reportLuns reserved entries ++ rest)) = .ok (.data d) ∧ d.lunList = entries.map (Spec.num · 0 2) ∧
      d.entries = entries.map (Spec.num · 0 8) := by
  unfold reportLuns
  simp only [if_pos ha, reportLunsData_eq true reserved entries rest hr he hn]
  refine ⟨_, rfl, ?_, ?_⟩
  · simp only [List.map_map]
    apply List.map_congr_left
    intro e h1
    have h8 := he e h1
    have h2 : beNat e = beNat (e.take 2) * 256 ^ (e.drop 2).length + beNat (e.drop 2) := by rw [← beNat_append, List.take_append_drop]
    have h3 := beNat_lt (e.drop 2)
    have h4 := beNat_slice e 0 2 (by omega)
    simp only [slice, List.drop_zero, Nat.zero_add] at h4
    simp only [List.length_drop, h8] at h2 h3
    simp only [Function.comp_apply, Nat.shiftRight_eq_div_pow, ← h4, h2]
    simp only [Nat.reducePow, Nat.reduceSub] at h3 ⊢
    omega
  · apply List.map_congr_left
    intro e h1
    rw [← num_eq_beNat, he e h1]

/-- A response that announces more bytes of entries than it has (the allocation length was too small) is refused: no partial list. -/
theorem C38_incomplete (alloc : Int) (allow : Bool) (reserved es : Bytes) (len : Nat) (ha : 16 ≤ alloc) (hr : reserved.length = 4)
    (hlen : len < 2 ^ 32) (hs : es.length < len) :
    reportLuns alloc allow (some (be 4 len ++ reserved ++ es)) = .error .truncated := by
  unfold reportLuns
  simp only [if_pos ha]
  unfold reportLunsData
  rw [header8 len reserved es hr (by simpa using hlen)]
  simp only [bind, Except.bind, List.lookup, BEq.rfl, Option.getD_some, sumSize_short 8 len (by decide) es hs]

/-- Below 16 bytes of allocation length nothing is decoded: the raw response is returned, provided it has exactly the requested length. -/
theorem C38_raw (alloc : Int) (allow : Bool) (b : Option Bytes) (ha : alloc < 16) (r : ReportLunsResult) (h : reportLuns alloc allow b = .ok r) :
    r = .raw b ∧ ((b.getD []).length : Int) = alloc := by
  unfold reportLuns at h
  rw [if_neg (by omega)] at h
  simp only [bind, Except.bind, pyAssert] at h
  by_cases hc : ((b.getD []).length : Int) = alloc
  · simp [hc] at h; exact ⟨h.symm, hc⟩
  · simp [hc] at h

/-- LUNs 0, 1 and 300; then an entry with a second level. -/
example : reportLuns 16384 false (some (Spec.reportLuns (zeros 4) ([0, 1, 300].map Spec.simpleLun))) =
    .ok (.data { lunListLength := 24, entries := [0, 2 ^ 48, 300 * 2 ^ 48], lunList := [0, 1, 300] }) := by decide +kernel
example : ∀ n < 2 ^ 14, ([0, 1, 0, 2, 0, 0, 0, 0] : Bytes) ≠ Spec.simpleLun n := by
  intro n h hc
  have := congrArg beNat hc
  rw [beNat_simpleLun n (by omega)] at this
  simp only [show beNat [0, 1, 0, 2, 0, 0, 0, 0] = 2 ^ 48 + 2 * 2 ^ 32 by decide] at this
  omega

/-! ## C39 — REPORT TARGET PORT GROUPS -/

/-- The object for one descriptor. -/
def groupObject (d : Bytes) : TargetPortGroup :=
  { attrs := Spec.targetPortGroup d, ports := (Spec.targetPorts d).map (fun (p : Nat) => [("relative_target_port_identifier", (p : Int))]) }

theorem fieldVal_byte (sg : Bool) (b : Bytes) (name : String) (i : Nat) (h : sg = true → Spec.byteAt b i < 128) :
    fieldVal sg b (.i name (.bytes i (i + 1))) = (Spec.byteAt b i : Int) := by
  simp only [fieldVal, refNum, intValue, show i + 1 - i = 1 by omega, num_one]
  cases sg with
  | false => rfl
  | true => simp only [if_true, toSigned]; rw [if_pos (by simpa using h rfl)]

theorem num_append_eq (d rest : Bytes) (i n : Nat) (h : i + n ≤ d.length) : Spec.num (d ++ rest) i n = Spec.num d i n :=
  num_append_left d rest i n h

theorem targetPortGroup_at (sg : Bool) (d rest : Bytes) (hd : Spec.IsTargetPortGroup d)
    (hsg : sg = true → Spec.byteAt d 5 < 128 ∧ Spec.byteAt d 7 < 128) :
    targetPortGroup sg (d ++ rest) = .ok (groupObject d, d.length) := by
  obtain ⟨hlen, h8⟩ := hd
  have hb : ∀ i, i < 8 → Spec.byteAt (d ++ rest) i = Spec.byteAt d i := fun i hi => byteAt_append_left d rest i (by omega)
  have hattrs : targetPortGroupFields.map (fun f => (f.name, fieldVal sg (d ++ rest) f)) = Spec.targetPortGroup d := by
    have h5 := fieldVal_byte sg (d ++ rest) "status_code" 5 (by intro h; rw [hb 5 (by omega)]; exact (hsg h).1)
    have h7 := fieldVal_byte sg (d ++ rest) "target_port_count" 7 (by intro h; rw [hb 7 (by omega)]; exact (hsg h).2)
    simp only [targetPortGroupFields, List.map_cons, List.map_nil, h5, h7, UField.name]
    simp only [fieldVal, refNum, intValue, Spec.bitsAt, hb 0 (by omega), hb 1 (by omega), hb 5 (by omega), hb 7 (by omega),
      num_append_left d rest 2 2 (by omega)]
    rfl
  unfold targetPortGroup
  rw [unpackFields_eq sg _ _ (by simp [targetPortGroupFields, UField.ref, Ref.Ok])
    (by simp [targetPortGroupFields, fieldsEnd, UField.ref, Ref.stop]; omega), hattrs]
  have hcount : (get (Spec.targetPortGroup d) "target_port_count").toNat = Spec.byteAt d 7 := by simp [get, Spec.targetPortGroup, List.lookup]
  simp only [bind, Except.bind, hcount]
  rw [targetPorts_eq sg (d ++ rest) _ 8 (by simp; omega)]
  simp only [groupObject, Spec.targetPorts, List.map_map]
  have hp : (List.range (Spec.byteAt d 7)).map (fun j => [("relative_target_port_identifier", (Spec.num (d ++ rest) (8 + 4 * j + 2) 2 : Int))]) =
      (List.range (Spec.byteAt d 7)).map ((fun (p : Nat) => [("relative_target_port_identifier", (p : Int))]) ∘ fun j => Spec.num d (8 + 4 * j + 2) 2) := by
    apply List.map_congr_left
    intro j hj
    have := List.mem_range.1 hj
    rw [num_append_left d rest _ _ (by omega)]; rfl
  rw [hp, hlen]

theorem fieldVal_num (sg : Bool) (b : Bytes) (name : String) (i n : Nat) (hn : 0 < n) (h : sg = true → Spec.num b i n < 2 ^ (8 * n - 1)) :
    fieldVal sg b (.i name (.bytes i (i + n))) = (Spec.num b i n : Int) := by
  simp only [fieldVal, refNum, intValue, show i + n - i = n by omega]
  cases sg with
  | false => rfl
  | true => simp only [if_true, toSigned]; rw [if_pos (h rfl)]

/-- The length-only format: for every list of complete descriptors, with anything after the data, exactly these groups with exactly these
ports are returned, in order. (`sg`: if `be_int_field` is signed in the library, counts and status codes of 128 and more, and lengths of
2^31 and more, are excluded; see `C39_signed_false`.) -/
theorem C39_length_only (sg : Bool) (groups : List Bytes) (rest : Bytes) (hg : ∀ d ∈ groups, Spec.IsTargetPortGroup d)
    (hsg : sg = true → ∀ d ∈ groups, Spec.byteAt d 5 < 128 ∧ Spec.byteAt d 7 < 128)
    (hl : groups.flatten.length < 2 ^ 31) :
    rtpg sg 0 (Spec.rtpgLengthOnly groups ++ rest) = .ok { attrs := [("data_length", groups.flatten.length)], groups := groups.map groupObject } := by
  have hnum : Spec.num (Spec.rtpgLengthOnly groups ++ rest) 0 4 = groups.flatten.length := by
    unfold Spec.rtpgLengthOnly
    rw [List.append_assoc, num_be 4 _ _ (by simp only [Nat.reducePow] at hl ⊢; omega)]
  have hval := fieldVal_num sg (Spec.rtpgLengthOnly groups ++ rest) "data_length" 0 4 (by decide) (by intro _; rw [hnum]; exact hl)
  have hfl : groups.flatten = groups.flatMap id := by simp
  have hslice : sliceFrom (Spec.rtpgLengthOnly groups ++ rest) 4 (groups.flatten.length : Int) = groups.flatMap id := by
    unfold sliceFrom slice Spec.rtpgLengthOnly
    rw [← hfl, show ((4 : Nat) : Int) + (groups.flatten.length : Int) = ((4 + groups.flatten.length : Nat) : Int) by simp, Int.toNat_natCast,
      List.take_append_of_le_length (by simp), List.take_of_length_le (by simp)]
    exact List.drop_left' (by simp)
  rw [rtpg, if_pos rfl]
  unfold rtpgLengthOnly
  rw [unpackFields_eq sg _ _ (by simp [UField.ref, Ref.Ok]) (by simp [fieldsEnd, UField.ref, Ref.stop, Spec.rtpgLengthOnly])]
  simp only [List.map_cons, List.map_nil, UField.name]
  rw [hval, hnum]
  simp only [bind, Except.bind, get, List.lookup, BEq.rfl, Option.getD_some]
  rw [hslice, unpackAll_encode (targetPortGroup sg) id groupObject groups
    (by intro d hd; have := (hg d hd).2; intro h; simp only [id] at h; rw [h] at this; simp at this)
    (by intro d hd r; exact targetPortGroup_at sg d r (hg d hd) (fun h => hsg h d hd))]

/-- Two groups, one with two ports, one with none. -/
example : ∃ d1 d2 : Bytes, Spec.IsTargetPortGroup d1 ∧ Spec.IsTargetPortGroup d2 ∧ Spec.targetPorts d1 = [1, 2] ∧ Spec.targetPorts d2 = [] ∧
    rtpg true 0 (Spec.rtpgLengthOnly [d1, d2]) = .ok { attrs := [("data_length", 24)], groups := [groupObject d1, groupObject d2] } :=
  ⟨[0x80, 0x8F, 0, 1, 0, 2, 0, 2, 0, 0, 0, 1, 0, 0, 0, 2], [0x02, 0x8F, 0, 2, 0, 0, 0, 0], by decide, by decide, by decide, by decide, by decide +kernel⟩

theorem targetPort_consumes (sg : Bool) (buf : Bytes) (a : List (String × Int)) (k : Nat) (h : targetPort sg buf = .ok (a, k)) :
    k = 4 ∧ 4 ≤ buf.length := by
  unfold targetPort at h
  by_cases hl : 4 ≤ buf.length
  · rw [unpackFields_eq sg _ _ (by simp [targetPortFields, UField.ref, Ref.Ok]) (by simpa [targetPortFields, fieldsEnd, UField.ref, Ref.stop] using hl)] at h
    cases h; exact ⟨rfl, hl⟩
  · obtain ⟨e, he⟩ := unpackFields_short sg targetPortFields buf (by simp [targetPortFields, UField.ref, Ref.Ok])
      (by simpa [targetPortFields, fieldsEnd, UField.ref, Ref.stop] using hl)
    rw [he] at h; cases h

theorem targetPorts_consume (sg : Bool) : ∀ (n : Nat) (buf : Bytes) (l : List (List (String × Int))) (k : Nat),
    unpackN (targetPort sg) n buf = .ok (l, k) → l.length = n ∧ k = 4 * n ∧ k ≤ buf.length
  | 0, buf, l, k, h => by cases h; simp
  | n + 1, buf, l, k, h => by
    rw [unpackN] at h
    cases h1 : targetPort sg buf with
    | error e => rw [h1] at h; cases h
    | ok r =>
      obtain ⟨a, k1⟩ := r
      rw [h1] at h
      simp only [bind, Except.bind] at h
      obtain ⟨rfl, h4⟩ := targetPort_consumes sg buf a k1 h1
      cases h2 : unpackN (targetPort sg) n (buf.drop 4) with
      | error e => rw [h2] at h; cases h
      | ok r =>
        obtain ⟨xs, ks⟩ := r
        rw [h2] at h
        cases h
        obtain ⟨e1, e2, e3⟩ := targetPorts_consume sg n _ xs ks h2
        simp only [List.length_drop] at e3
        simp only [List.length_cons]
        omega

theorem targetPortGroup_consumes (sg : Bool) (buf : Bytes) (g : TargetPortGroup) (k : Nat) (h : targetPortGroup sg buf = .ok (g, k)) :
    k = 8 + 4 * g.ports.length ∧ k ≤ buf.length := by
  unfold targetPortGroup at h
  by_cases hl : 8 ≤ buf.length
  · rw [unpackFields_eq sg _ _ (by simp [targetPortGroupFields, UField.ref, Ref.Ok])
      (by simpa [targetPortGroupFields, fieldsEnd, UField.ref, Ref.stop] using hl)] at h
    simp only [bind, Except.bind] at h
    split at h
    · cases h
    · rename_i v hv
      cases h
      obtain ⟨e1, e2, e3⟩ := targetPorts_consume sg _ _ v.1 v.2 hv
      simp only [List.length_drop] at e3
      simp only
      omega
  · obtain ⟨e, he⟩ := unpackFields_short sg targetPortGroupFields buf (by simp [targetPortGroupFields, UField.ref, Ref.Ok])
      (by simpa [targetPortGroupFields, fieldsEnd, UField.ref, Ref.stop] using hl)
    rw [he] at h; cases h

/-- What is decoded accounts for every byte of the range. -/
theorem groups_consume (sg : Bool) : ∀ (m : Nat) (buf : Bytes) (gs : List TargetPortGroup), buf.length ≤ m → unpackAll (targetPortGroup sg) buf = .ok gs →
    buf.length = (gs.map fun g => 8 + 4 * g.ports.length).sum := by
  intro m
  induction m with
  | zero =>
    intro buf gs hm h
    have : buf = [] := List.length_eq_zero_iff.1 (by omega)
    subst this
    rw [unpackAll, if_pos rfl] at h
    cases h; rfl
  | succ m ih =>
    intro buf gs hm h
    rw [unpackAll] at h
    by_cases hb : buf = []
    · rw [if_pos hb] at h; cases h; simp [hb]
    rw [if_neg hb] at h
    cases h1 : targetPortGroup sg buf with
    | error e => rw [h1] at h; cases h
    | ok r =>
      obtain ⟨g, k⟩ := r
      rw [h1] at h
      obtain ⟨rfl, hk⟩ := targetPortGroup_consumes sg buf g k h1
      simp only at h
      rw [dif_neg (by simp [hb])] at h
      cases h2 : unpackAll (targetPortGroup sg) (buf.drop (8 + 4 * g.ports.length)) with
      | error e => rw [h2] at h; cases h
      | ok xs =>
        rw [h2] at h
        cases h
        have := ih _ xs (by simp only [List.length_drop]; omega) h2
        simp only [List.length_drop] at this
        simp only [List.map_cons, List.sum_cons]
        omega

theorem groups_length : ∀ groups : List Bytes, (∀ d ∈ groups, Spec.IsTargetPortGroup d) →
    ((groups.map groupObject).map fun g => 8 + 4 * g.ports.length).sum = groups.flatten.length
  | [], _ => rfl
  | d :: ds, h => by
    have := groups_length ds fun x hx => h x (List.mem_cons_of_mem _ hx)
    have h1 := (h d List.mem_cons_self).1
    simp only [List.map_cons, List.sum_cons, List.flatten_cons, List.length_append, this]
    simp only [groupObject, Spec.targetPorts, List.length_map, List.length_range, h1]

/-- The extended format is always misread: the descriptors are looked for one byte too early and the range is three bytes too long at the end,
so whatever groups the target reports, and whatever follows the response, the caller never gets these groups. -/
theorem C39_extended_false (sg : Bool) (time : UInt8) (groups : List Bytes) (rest : Bytes) (hg : ∀ d ∈ groups, Spec.IsTargetPortGroup d)
    (hl : groups.flatten.length + 4 < 2 ^ 31) (r : TargetPortGroups) (h : rtpg sg 1 (Spec.rtpgExtended time groups ++ rest) = .ok r) :
    r.groups ≠ groups.map groupObject := by
  intro he
  have hnum : Spec.num (Spec.rtpgExtended time groups ++ rest) 0 4 = 4 + groups.flatten.length := by
    unfold Spec.rtpgExtended
    rw [List.append_assoc, List.append_assoc, num_be 4 _ _ (by simp only [Nat.reducePow] at hl ⊢; omega)]
  have hval := fieldVal_num sg (Spec.rtpgExtended time groups ++ rest) "data_length" 0 4 (by decide) (by intro _; rw [hnum]; simp only [Nat.reducePow] at hl ⊢; omega)
  rw [rtpg, if_neg (by decide), if_pos rfl] at h
  unfold rtpgExtended at h
  rw [unpackFields_eq sg _ _ (by simp [UField.ref, Ref.Ok]) (by simp [fieldsEnd, UField.ref, Ref.stop, Spec.rtpgExtended]; omega)] at h
  simp only [List.map_cons, List.map_nil, UField.name] at h
  rw [hval, hnum] at h
  simp only [bind, Except.bind, get, List.lookup, BEq.rfl, Option.getD_some] at h
  split at h
  · cases h
  · rename_i v hv
    cases h
    have h1 := groups_consume sg _ _ _ (Nat.le_refl _) hv
    rw [show v = groups.map groupObject from he, groups_length groups hg] at h1
    unfold sliceFrom slice at h1
    rw [show ((7 : Nat) : Int) + ((4 + groups.flatten.length : Nat) : Int) = ((7 + (4 + groups.flatten.length) : Nat) : Int) by simp, Int.toNat_natCast] at h1
    simp only [List.length_drop, List.length_take, List.length_append, Spec.rtpgExtended, be_length, List.length_cons, List.length_nil] at h1
    omega

/-- What is right about the extended format: if anything is returned, the header has the length and the format type the target sent. -/
theorem C39_extended_partial (sg : Bool) (time : UInt8) (groups : List Bytes) (rest : Bytes)
    (hl : groups.flatten.length + 4 < 2 ^ 31) (r : TargetPortGroups) (h : rtpg sg 1 (Spec.rtpgExtended time groups ++ rest) = .ok r) :
    r.attrs = [("data_length", ((groups.flatten.length + 4 : Nat) : Int)), ("format_type", 1)] := by
  have hnum : Spec.num (Spec.rtpgExtended time groups ++ rest) 0 4 = 4 + groups.flatten.length := by
    unfold Spec.rtpgExtended
    rw [List.append_assoc, List.append_assoc, num_be 4 _ _ (by simp only [Nat.reducePow] at hl ⊢; omega)]
  have hval := fieldVal_num sg (Spec.rtpgExtended time groups ++ rest) "data_length" 0 4 (by decide) (by intro _; rw [hnum]; simp only [Nat.reducePow] at hl ⊢; omega)
  have hft : fieldVal sg (Spec.rtpgExtended time groups ++ rest) (.i "format_type" (.bits 4 4 7)) = 1 := by
    have hb : Spec.byteAt (Spec.rtpgExtended time groups ++ rest) 4 = 16 := by
      unfold Spec.rtpgExtended Spec.byteAt
      rw [List.append_assoc, List.append_assoc, List.getD_eq_getElem?_getD, List.getElem?_append_right (by simp)]
      simp
    simp only [fieldVal, refNum, Spec.bitsAt, intValue, hb]
    decide
  rw [rtpg, if_neg (by decide), if_pos rfl] at h
  unfold rtpgExtended at h
  rw [unpackFields_eq sg _ _ (by simp [UField.ref, Ref.Ok]) (by simp [fieldsEnd, UField.ref, Ref.stop, Spec.rtpgExtended]; omega)] at h
  simp only [List.map_cons, List.map_nil, UField.name] at h
  rw [hval, hnum, hft] at h
  simp only [bind, Except.bind] at h
  split at h
  · cases h
  · cases h
    rw [Nat.add_comm]

/-- A response with one group of one port is refused outright. -/
example : ∃ (time : UInt8) (d : Bytes), Spec.IsTargetPortGroup d ∧ Spec.byteAt d 5 < 128 ∧ Spec.byteAt d 7 < 128 ∧
    ∀ sg, rtpg sg 1 (Spec.rtpgExtended time [d]) = .error .truncated := by
  refine ⟨0, [0x00, 0x8F, 0, 1, 0, 0, 0, 1, 0, 0, 0, 1], by decide, by decide, by decide, ?_⟩
  intro sg
  cases sg <;> decide +kernel

/-- Filled up with zeros the response of one group is taken for another group. -/
example : ∃ (d : Bytes) (r : TargetPortGroups), Spec.IsTargetPortGroup d ∧ (∀ sg, rtpg sg 1 (Spec.rtpgExtended 0 [d] ++ zeros 8) = .ok r) ∧
    r.groups ≠ [groupObject d] := by
  refine ⟨[0x00, 0x8F, 0, 1, 0, 0, 1, 0], ⟨[("data_length", 12), ("format_type", 1)], [⟨[("asymetric_access_state", 0),
    ("pref", 0), ("ao_sup", 0), ("an_sup", 0), ("s_sup", 0), ("u_sup", 0), ("lbd_sup", 0), ("o_sup", 0), ("t_sup", 0), ("target_port_group", 0x8F00),
    ("status_code", 0), ("target_port_count", 1)], [[("relative_target_port_identifier", 0)]]⟩]⟩, by decide, fun sg => by cases sg <;> decide +kernel, ?_⟩
  decide +kernel

/-- If `be_int_field` is signed in the library, the ports of a group with 128 ports are lost. -/
theorem C39_signed_false : ∃ d : Bytes, Spec.IsTargetPortGroup d ∧ (Spec.targetPorts d).length = 128 ∧
    ∃ g k, targetPortGroup true d = .ok (g, k) ∧ g.ports = [] :=
  ⟨[0x00, 0x8F, 0, 1, 0, 0, 0, 128] ++ zeros 512, by decide +kernel, by decide +kernel,
   { attrs := [("asymetric_access_state", 0), ("pref", 0), ("ao_sup", 1), ("an_sup", 1), ("s_sup", 1), ("u_sup", 1), ("lbd_sup", 0), ("o_sup", 0),
       ("t_sup", 1), ("target_port_group", 1), ("status_code", 0), ("target_port_count", -128)], ports := [] }, 8, by decide +kernel, rfl⟩

/-! ## C56 — RECEIVE COPY OPERATING PARAMETERS -/

/-- Every complete response decodes to the limits at the standard's positions and the list of implemented descriptor types. -/
theorem C56_receive_copy (sg : Bool) (b : Bytes) (h : 44 + Spec.byteAt b 43 ≤ b.length) :
    receiveCopy sg b = .ok { attrs := Spec.receiveCopy b, descriptors := (List.range (Spec.byteAt b 43)).map (fun k => Spec.byteAt b (44 + k)) } := by
  unfold receiveCopy
  rw [unpackFields_eq sg _ _ (by simp [receiveCopyFields, UField.ref, Ref.Ok]) (by simp [receiveCopyFields, fieldsEnd, UField.ref, Ref.stop]; omega)]
  have hm : receiveCopyFields.map (fun f => (f.name, fieldVal sg b f)) = Spec.receiveCopy b := by
    simp only [receiveCopyFields, List.map_cons, List.map_nil, UField.name, fieldVal, refNum, intValue, Nat.reduceSub, num_one]; rfl
  rw [hm]
  have hg : get (Spec.receiveCopy b) "implemented_descriptor_list_length" = (Spec.byteAt b 43 : Int) := by
    simp [get, Spec.receiveCopy, List.lookup]
  simp only [bind, Except.bind, hg, unpackAll_u8]
  congr 2
  unfold sliceFrom
  rw [show ((44 : Nat) : Int) + (Spec.byteAt b 43 : Int) = ((44 + Spec.byteAt b 43 : Nat) : Int) by simp, Int.toNat_natCast]
  generalize Spec.byteAt b 43 = n at h
  rcases n with _ | n
  · simp [slice]
  · rw [show 44 + (n + 1) = 44 + n + 1 by omega, slice_bytesAt b 44 n (by omega)]
    simp only [Spec.bytesAt, List.map_map, show 44 + n + 1 - 44 = n + 1 by omega]
    rfl

/-- A response shorter than its fixed part is refused. -/
theorem C56_short (sg : Bool) (b : Bytes) (h : b.length < 44) : ∃ e, receiveCopy sg b = .error e := by
  obtain ⟨e, he⟩ := unpackFields_short sg receiveCopyFields b (by simp [receiveCopyFields, UField.ref, Ref.Ok])
    (by simpa [receiveCopyFields, fieldsEnd, UField.ref, Ref.stop] using h)
  exact ⟨e, by unfold receiveCopy; rw [he]; rfl⟩

example : (receiveCopy true (be 4 43 ++ zeros 39 ++ [3, 0, 2, 0xE4])).map (·.descriptors) = .ok [0, 2, 0xE4] := by decide +kernel

/-! ## C35 — PERSISTENT RESERVE IN -/

theorem prHeader_eq (sg : Bool) (b : Bytes) (h : 8 ≤ b.length) : unpackFields sg prHeader b = .ok (Spec.prHeader b) := by
  rw [unpackFields_eq sg _ _ (by simp [prHeader, UField.ref, Ref.Ok]) (by simp [prHeader, fieldsEnd, UField.ref, Ref.stop]; omega)]
  rfl

theorem prHeader_len (b : Bytes) : get (Spec.prHeader b) "additional_length" = (Spec.num b 4 4 : Int) := by
  simp [get, Spec.prHeader, List.lookup]

/-- READ KEYS, complete response: every key, in order; the length needed is reported. -/
theorem C35_read_keys (sg : Bool) (generation : Nat) (keys : List Nat) (rest : Bytes) (hg : generation < 2 ^ 32) (hk : ∀ k ∈ keys, k < 2 ^ 64)
    (hn : 8 * keys.length < 2 ^ 32) :
    ∃ r, prin sg 0 (Spec.readKeys generation keys ++ rest) = .ok (.keys r) ∧ r.keys = some keys ∧ get r.attrs "pr_generation" = generation ∧
      requiredLength r.attrs = (Spec.readKeys generation keys).length := by
  have hfl : (keys.flatMap (be 8)).length = 8 * keys.length := by
    clear hk hn
    induction keys with
    | nil => rfl
    | cons k ks ih => simp only [List.flatMap_cons, List.length_append, be_length, ih, List.length_cons]; omega
  have h0 : Spec.num (Spec.readKeys generation keys ++ rest) 0 4 = generation := by
    simp only [Spec.readKeys, List.append_assoc]; rw [num_be 4 _ _ (by simpa using hg)]
  have h4 : Spec.num (Spec.readKeys generation keys ++ rest) 4 4 = 8 * keys.length := by
    simp only [Spec.readKeys, List.append_assoc]
    rw [num_skip _ _ _ _ (by simp)]
    simp only [be_length, Nat.sub_self]
    rw [num_be 4 _ _ (by simpa using hn)]
  have hlen : (Spec.readKeys generation keys).length = 8 + 8 * keys.length := by simp [Spec.readKeys, hfl]; omega
  have hsl : slice (Spec.readKeys generation keys ++ rest) 8 (8 + 8 * keys.length) = keys.flatMap (be 8) := by
    unfold slice
    rw [← hlen, List.take_left' rfl]
    unfold Spec.readKeys
    exact List.drop_left' (by simp)
  have hu := unpackN_encode_mem (elemUInt 8) (be 8) id keys (by
    intro k h r
    rw [elemUInt_append 8 (be 8 k) r (by simp), beNat_be_of_lt (by simpa using hk k h)]; rfl) []
  rw [List.append_nil, List.map_id] at hu
  rw [prin, if_pos rfl]
  unfold readKeys
  rw [prHeader_eq sg _ (by simp [hlen]; omega)]
  simp only [bind, Except.bind, prHeader_len, h4, Int.toNat_natCast, ge_iff_le]
  rw [if_pos (by simp [hlen]; omega), hsl, Nat.mul_div_cancel_left _ (by decide : 0 < 8)]
  simp only [hu]
  refine ⟨_, rfl, rfl, ?_, ?_⟩
  · simp [get, Spec.prHeader, List.lookup, h0]
  · simp only [requiredLength, prHeader_len, h4, hlen]; omega

/-- READ KEYS, incomplete response (of at least the eight byte header): no keys, rather than some of them, and the length needed for all
of them is reported. -/
theorem C35_read_keys_incomplete (sg : Bool) (b : Bytes) (h : 8 ≤ b.length) (hi : b.length < Spec.num b 4 4 + 8) :
    prin sg 0 b = .ok (.keys { attrs := Spec.prHeader b, keys := none }) ∧ requiredLength (Spec.prHeader b) = Spec.num b 4 4 + 8 := by
  rw [prin, if_pos rfl]
  unfold readKeys
  rw [prHeader_eq sg b h]
  simp only [bind, Except.bind, prHeader_len, Int.toNat_natCast, ge_iff_le]
  rw [if_neg (by omega)]
  exact ⟨rfl, by simp only [requiredLength, prHeader_len]⟩

/-- READ RESERVATION with a reservation: the fields at the standard's positions. -/
theorem C35_read_reservation (sg : Bool) (b : Bytes) (h : 24 ≤ b.length) : prin sg 1 b = .ok (.reservation (Spec.readReservation b)) := by
  rw [prin, if_neg (by decide), if_pos rfl]
  unfold readReservation
  have hf : reservationOptional.filter (fun p => decide (p.1 ≤ b.length)) = reservationOptional := by
    rw [List.filter_eq_self]
    intro p hp
    simp only [reservationOptional, List.mem_cons, List.not_mem_nil, or_false] at hp
    rcases hp with rfl | rfl | rfl | rfl | rfl | rfl <;> simp <;> omega
  rw [hf, unpackFields_eq sg _ _ (by simp [prHeader, reservationOptional, UField.ref, Ref.Ok])
    (by simp [prHeader, reservationOptional, fieldsEnd, UField.ref, Ref.stop]; omega)]
  simp only [prHeader, reservationOptional, List.map_cons, List.map_nil, List.cons_append, List.nil_append, UField.name, fieldVal, refNum, Nat.reduceSub, num_one]
  rfl

/-- READ RESERVATION without a reservation (eight bytes): the header only. -/
theorem C35_no_reservation (sg : Bool) (b : Bytes) (h : 8 ≤ b.length) (h' : b.length < 16) : prin sg 1 b = .ok (.reservation (Spec.prHeader b)) := by
  rw [prin, if_neg (by decide), if_pos rfl]
  unfold readReservation
  have hf : reservationOptional.filter (fun p => decide (p.1 ≤ b.length)) = [] := by
    rw [List.filter_eq_nil_iff]
    intro p hp
    simp only [reservationOptional, List.mem_cons, List.not_mem_nil, or_false] at hp
    rcases hp with rfl | rfl | rfl | rfl | rfl | rfl <;> simp <;> omega
  rw [hf, List.map_nil, List.append_nil, prHeader_eq sg b h]
  rfl

/-- A response cut after byte 20 is refused although the header and the key are there: the guard of byte 21 is `≥ 21`. -/
theorem C35_read_reservation_cut_false (sg : Bool) (b : Bytes) (h : b.length = 21) : ∃ e, prin sg 1 b = .error e := by
  have hf : reservationOptional.filter (fun p => decide (p.1 ≤ b.length)) = reservationOptional.take 5 := by
    rw [h]; rfl
  obtain ⟨e, he⟩ := unpackFields_short sg (prHeader ++ (reservationOptional.take 5).map (·.2)) b
    (by simp [prHeader, reservationOptional, UField.ref, Ref.Ok]) (by rw [h]; decide)
  refine ⟨e, ?_⟩
  rw [prin, if_neg (by decide), if_pos rfl]
  unfold readReservation
  rw [hf, he]; rfl

/-- REPORT CAPABILITIES: the fields at the standard's positions. -/
theorem C35_report_capabilities (sg : Bool) (b : Bytes) (h : 8 ≤ b.length) : prin sg 2 b = .ok (.capabilities (Spec.reportCapabilities b)) := by
  rw [prin, if_neg (by decide), if_neg (by decide), if_pos rfl]
  unfold reportCapabilities
  rw [unpackFields_eq sg _ _ (by simp [capabilitiesFields, UField.ref, Ref.Ok]) (by simpa [capabilitiesFields, fieldsEnd, UField.ref, Ref.stop] using h)]
  simp only [capabilitiesFields, List.map_cons, List.map_nil, UField.name, fieldVal, refNum, Nat.reduceSub, num_one]
  rfl

/-- The object for one full status descriptor. -/
def fullStatusObject (d : Bytes) : FullStatus :=
  { attrs := Spec.fullStatus d, transport := { attrs := Spec.transportId (d.drop 24), specificData := d.drop 25 } }

theorem fullStatus_at (sg : Bool) (d rest : Bytes) (hd : Spec.IsFullStatus d) : fullStatus sg (d ++ rest) = .ok (fullStatusObject d, d.length) := by
  obtain ⟨hlen, h25⟩ := hd
  have hb : ∀ i, i < 25 → Spec.byteAt (d ++ rest) i = Spec.byteAt d i := fun i hi => byteAt_append_left d rest i (by omega)
  have hn : ∀ i n, i + n ≤ 25 → Spec.num (d ++ rest) i n = Spec.num d i n := fun i n hi => num_append_left d rest i n (by omega)
  have hattrs : fullStatusFields.map (fun f => (f.name, fieldVal sg (d ++ rest) f)) = Spec.fullStatus d := by
    simp only [fullStatusFields, List.map_cons, List.map_nil, UField.name, fieldVal, refNum, Nat.reduceSub, Spec.bitsAt, hb 12 (by omega),
      hb 13 (by omega), hn 0 8 (by omega), hn 18 2 (by omega), hn 20 4 (by omega)]
    rfl
  have hlen' : get (Spec.fullStatus d) "additional_length" = (Spec.num d 20 4 : Int) := by simp [get, Spec.fullStatus, List.lookup]
  have hsl : slice (d ++ rest) 24 (Spec.num d 20 4 + 24) = d.drop 24 := by
    unfold slice; rw [List.take_left' (by omega)]
  unfold fullStatus
  rw [unpackFields_eq sg _ _ (by simp [fullStatusFields, UField.ref, Ref.Ok])
    (by simp [fullStatusFields, fieldsEnd, UField.ref, Ref.stop]; omega), hattrs]
  simp only [bind, Except.bind, hlen', Int.toNat_natCast, hsl]
  unfold transportId
  rw [unpackFields_eq sg _ _ (by simp [UField.ref, Ref.Ok]) (by simp [fieldsEnd, UField.ref, Ref.stop]; omega)]
  simp only [bind, Except.bind, List.drop_drop]
  rw [show Spec.num d 20 4 + 24 = d.length by omega]
  rfl

/-- READ FULL STATUS: for every non-empty list of complete descriptors, exactly these are returned, in order, each with its TransportID. -/
theorem C35_read_full_status (sg : Bool) (generation : Nat) (ds : List Bytes) (rest : Bytes) (hg : generation < 2 ^ 32)
    (hd : ∀ d ∈ ds, Spec.IsFullStatus d) (hne : ds ≠ []) (hl : ds.flatten.length < 2 ^ 32) :
    ∃ r, prin sg 3 (Spec.readFullStatus generation ds ++ rest) = .ok (.fullStatus r) ∧ r.descriptors = some (ds.map fullStatusObject) ∧
      r.attrs = [("pr_generation", (generation : Int)), ("additional_length", (ds.flatten.length : Int))] := by
  have h0 : Spec.num (Spec.readFullStatus generation ds ++ rest) 0 4 = generation := by
    simp only [Spec.readFullStatus, List.append_assoc]; rw [num_be 4 _ _ (by simpa using hg)]
  have h4 : Spec.num (Spec.readFullStatus generation ds ++ rest) 4 4 = ds.flatten.length := by
    simp only [Spec.readFullStatus, List.append_assoc]
    rw [num_skip _ _ _ _ (by simp)]
    simp only [be_length, Nat.sub_self]
    rw [num_be 4 _ _ (by simpa using hl)]
  have hpos : 0 < ds.flatten.length := by
    cases ds with
    | nil => exact absurd rfl hne
    | cons d ds => have := (hd d (by simp)).2; simp only [List.flatten_cons, List.length_append]; omega
  have hfl : ds.flatten = ds.flatMap id := by simp
  have hsl : sliceFrom (Spec.readFullStatus generation ds ++ rest) 8 (ds.flatten.length : Int) = ds.flatMap id := by
    unfold sliceFrom slice Spec.readFullStatus
    rw [show ((8 : Nat) : Int) + (ds.flatten.length : Int) = ((8 + ds.flatten.length : Nat) : Int) by simp, Int.toNat_natCast,
      List.take_append_of_le_length (by simp; omega), List.take_of_length_le (by simp; omega), hfl]
    exact List.drop_left' (by simp)
  rw [prin, if_neg (by decide), if_neg (by decide), if_neg (by decide), if_pos rfl]
  unfold readFullStatus
  rw [prHeader_eq sg _ (by simp [Spec.readFullStatus]; omega)]
  simp only [bind, Except.bind, prHeader_len, h4, gt_iff_lt]
  rw [if_pos (by omega), hsl, unpackAll_encode (fullStatus sg) id fullStatusObject ds
    (by intro d h h'; have := (hd d h).2; simp only [id] at h'; rw [h'] at this; simp at this)
    (by intro d h r; exact fullStatus_at sg d r (hd d h))]
  refine ⟨_, rfl, rfl, ?_⟩
  simp only [Spec.prHeader, h0, h4]

/-- No registrations: no descriptors. -/
theorem C35_no_status (sg : Bool) (b : Bytes) (h : 8 ≤ b.length) (h0 : Spec.num b 4 4 = 0) :
    prin sg 3 b = .ok (.fullStatus { attrs := Spec.prHeader b, descriptors := none }) := by
  rw [prin, if_neg (by decide), if_neg (by decide), if_neg (by decide), if_pos rfl]
  unfold readFullStatus
  rw [prHeader_eq sg b h]
  simp [bind, Except.bind, prHeader_len, h0]

/-- The length needed is not reported for READ FULL STATUS: the method always raises `NameError`. -/
theorem C35_full_status_length_false (attrs : List (String × Int)) : fullStatusRequiredLength attrs = .error .nameError := rfl

/-- Other service actions have no response class: refused. -/
theorem C35_other (sg : Bool) (sa : Int) (b : Bytes) (h : sa < 0 ∨ 3 < sa) : prin sg sa b = .error .assertion := by
  rw [prin, if_neg (by omega), if_neg (by omega), if_neg (by omega), if_neg (by omega)]

example : (prin true 0 (Spec.readKeys 7 [0xABBA, 0xBABE] ++ zeros 20)) =
    .ok (.keys { attrs := [("pr_generation", 7), ("additional_length", 16)], keys := some [0xABBA, 0xBABE] }) := by decide +kernel
example : ∃ d : Bytes, Spec.IsFullStatus d ∧ Spec.num d 0 8 = 0xABBA := ⟨be 8 0xABBA ++ zeros 12 ++ be 4 24 ++ zeros 24, by decide, by decide⟩
example : prin true 0 (be 4 7 ++ be 4 16 ++ be 8 1) =
    .ok (.keys { attrs := [("pr_generation", 7), ("additional_length", 16)], keys := none }) := by decide +kernel

end Verif.Parse
