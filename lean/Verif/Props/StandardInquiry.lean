import Verif.Parse.PackLemmas
import Verif.Parse.DesignatorLemmas
/-!
# C45, C47: standard INQUIRY data and the ATA information page

The specification is `Spec/Inquiry.lean`.
-/
set_option linter.unusedSimpArgs false

namespace Verif.Parse
open Verif

/-! ## C45 — unpacking -/

theorem extended_eq (sg : Bool) (e : Bytes) :
    unpackExtended sg e = .ok
      { vendor1 := e.take 20
        ius := if 21 ≤ e.length then some (Spec.bitAt e 20 0 : Int) else none
        qas := if 21 ≤ e.length then some (Spec.bitAt e 20 1 : Int) else none
        clocking := if 21 ≤ e.length then some (Spec.bitsAt e 20 3 2 : Int) else none
        versions := if 24 ≤ e.length then some (Spec.versionDescriptors e) else none
        vendor2 := if 61 ≤ e.length then some (e.drop 60) else none } := by
  have hv : slice e 0 (min 20 e.length) = e.take 20 := by
    simp only [slice, List.drop_zero]
    by_cases h : e.length ≤ 20
    · rw [Nat.min_eq_right h, List.take_of_length_le h, List.take_of_length_le (by omega)]
    · rw [Nat.min_eq_left (by omega)]
  have hb : extendedBits sg e = .ok (if 21 ≤ e.length then
      some [("ius", (Spec.bitAt e 20 0 : Int)), ("qas", (Spec.bitAt e 20 1 : Int)), ("clocking", (Spec.bitsAt e 20 3 2 : Int))] else none) := by
    unfold extendedBits
    by_cases h : 21 ≤ e.length
    · rw [if_pos h, if_pos h, unpackFields_eq sg _ _ (by simp [UField.ref, Ref.Ok]) (by simpa [fieldsEnd, UField.ref, Ref.stop] using h)]
      rfl
    · rw [if_neg (by omega), if_neg h]
  have hn : extendedVersions e = .ok (if 24 ≤ e.length then some (Spec.versionDescriptors e) else none) := by
    unfold extendedVersions
    by_cases h : 24 ≤ e.length
    · rw [if_pos h, if_pos h, unpackN_uint 2 _ _ (by simp; omega)]
      simp only [Except.map, Spec.versionDescriptors]
      congr 2
      apply List.map_congr_left
      intro j _
      rw [Nat.mul_comm]
      have := num_append_right (e.take 22) (e.drop 22) (2 * j) 2
      rw [List.take_append_drop, List.length_take, Nat.min_eq_left (by omega)] at this
      exact this.symm
    · rw [if_neg (by omega), if_neg h]
  unfold unpackExtended
  rw [hb, hn, hv]
  simp only [bind, Except.bind]
  by_cases h : 21 ≤ e.length
  · simp only [if_pos h, Option.map_some]; rfl
  · simp only [if_neg h, Option.map_none]

/-- Every response of at least 36 bytes decodes to the values at the standard's positions. The extended part is there exactly when
ADDITIONAL LENGTH reaches past byte 35, and of it exactly the fields that lie in the bytes received: the rest is `None`. -/
theorem C45_unpack (L : BufLib) (b : Bytes) (h : 36 ≤ b.length) (ha : Spec.Ascii ((b.drop 8).take 28)) :
    standardInquiry L b = .ok
      { page := ⟨Spec.peripheral b, Spec.standardInquiry b⟩
        vendor := Spec.withoutTail 0x20 ((b.drop 8).take 8)
        product := Spec.withoutTail 0x20 ((b.drop 16).take 16)
        revision := Spec.withoutTail 0x20 ((b.drop 32).take 4)
        extended :=
          if 31 < Spec.byteAt b 4 then
            let e := Spec.extendedPart b
            some
              { vendor1 := e.take 20
                ius := if 21 ≤ e.length then some (Spec.bitAt e 20 0 : Int) else none
                qas := if 21 ≤ e.length then some (Spec.bitAt e 20 1 : Int) else none
                clocking := if 21 ≤ e.length then some (Spec.bitsAt e 20 3 2 : Int) else none
                versions := if 24 ≤ e.length then some (Spec.versionDescriptors e) else none
                vendor2 := if 61 ≤ e.length then some (e.drop 60) else none }
          else none } := by
  have hp : fixedPage L standardFields [] b = .ok ⟨Spec.peripheral b, Spec.standardInquiry b⟩ := by
    rw [fixedPage_eq L _ _ b (by simp [standardFields, UField.ref, Ref.Ok]) (by simp) (by omega)
      (by simp [standardFields, fieldsEnd, UField.ref, Ref.stop]; omega) (by simp [catsEnd])]
    simp only [standardFields, List.map_cons, List.map_nil, UField.name, fieldVal, refNum, Nat.reduceSub, num_one]
    rfl
  have hlen : get (Spec.standardInquiry b) "additional_length" = (Spec.byteAt b 4 : Int) := by
    simp [get, Spec.standardInquiry, List.lookup]
  have hsub : ∀ a n, 8 ≤ a → a + n ≤ 36 → Spec.Ascii (slice b a (a + n)) := by
    intro a n h8 h36 c hc
    apply ha c
    rw [take_drop_eq_slice]
    obtain ⟨i, hi, rfl⟩ := List.getElem_of_mem hc
    simp only [slice, List.length_drop, List.length_take] at hi
    refine List.mem_iff_getElem.2 ⟨i + (a - 8), by simp [slice]; omega, ?_⟩
    simp only [slice, List.getElem_drop, List.getElem_take]
    congr 1; omega
  unfold standardInquiry
  rw [hp]
  simp only [bind, Except.bind, take_drop_eq_slice, textOf_ascii L 0x20 _ (hsub 8 8 (by omega) (by omega)),
    textOf_ascii L 0x20 _ (hsub 16 16 (by omega) (by omega)), textOf_ascii L 0x20 _ (hsub 32 4 (by omega) (by omega)), hlen]
  by_cases hx : 31 < Spec.byteAt b 4
  · rw [if_pos (show (Spec.byteAt b 4 : Int) > 36 - 5 by omega), if_pos hx,
      show ((Spec.byteAt b 4 : Int) + 5).toNat = Spec.byteAt b 4 + 5 by omega, show slice b 36 (Spec.byteAt b 4 + 5) = Spec.extendedPart b from rfl,
      extended_eq]
  · rw [if_neg (show ¬ (Spec.byteAt b 4 : Int) > 36 - 5 by omega), if_neg hx]

/-- A response without all of the numbers is refused. -/
theorem C45_short (L : BufLib) (b : Bytes) (h : b.length < 8) : standardInquiry L b = .error .truncated := by
  unfold standardInquiry
  rw [fixedPage_short L _ _ b (by simp [standardFields, UField.ref, Ref.Ok]) (by simpa [standardFields, fieldsEnd, UField.ref, Ref.stop] using h)]
  rfl

/-! ## C45 — packing and unpacking -/

theorem write_new_byte (b : Bytes) (n : Nat) (lo hi : Nat) : (Ref.bits b.length lo hi).write b n = b ++ [setBits 0 lo hi n] := by
  simp [Ref.write, grow, zeros]

theorem write_last_byte (b : Bytes) (c : UInt8) (n : Nat) (lo hi : Nat) :
    (Ref.bits b.length lo hi).write (b ++ [c]) n = b ++ [setBits c lo hi n] := by
  simp [Ref.write, grow, zeros]

/-- Byte 20 of the extended part. -/
def flags (ius qas clocking : Nat) : UInt8 := setBits (setBits (setBits 0 0 1 ius) 1 2 qas) 2 4 clocking

theorem flags_read : ∀ i < 2, ∀ q < 2, ∀ c < 4, (flags i q c).toNat / 2 ^ 0 % 2 = i ∧ (flags i q c).toNat / 2 ^ 1 % 2 = q ∧
    (flags i q c).toNat / 2 ^ 2 % 2 ^ (3 + 1 - 2) = c := by decide

theorem packUInts_eq (l : List Nat) (h : ∀ v ∈ l, v < 2 ^ 16) : packUInts 2 (l.map fun v : Nat => (v : Int)) = .ok (l.flatMap (be 2)) := by
  induction l with
  | nil => rfl
  | cons v vs ih =>
    have hv := h v (by simp)
    have : packUInt 2 (v : Int) = .ok (be 2 v) := by
      unfold packUInt
      rw [if_pos ⟨by omega, by simp; omega⟩]; simp
    simp only [List.map_cons, packUInts, ih (fun w hw => h w (by simp [hw])), this]; rfl

theorem flatMap_be_length (l : List Nat) : (l.flatMap (be 2)).length = 2 * l.length := by
  induction l with
  | nil => rfl
  | cons v vs ih => simp only [List.flatMap_cons, List.length_append, be_length, List.length_cons, ih]; omega

theorem num_flatMap_be (l : List Nat) (h : ∀ v ∈ l, v < 2 ^ 16) (tail : Bytes) :
    (List.range l.length).map (fun j => Spec.num (l.flatMap (be 2) ++ tail) (2 * j) 2) = l := by
  induction l with
  | nil => rfl
  | cons v vs ih =>
    rw [List.length_cons, List.range_succ_eq_map, List.map_cons, List.map_map, List.flatMap_cons, List.append_assoc]
    rw [show Spec.num (be 2 v ++ (vs.flatMap (be 2) ++ tail)) (2 * 0) 2 = v from num_be 2 v _ (h v (by simp))]
    have : ((fun j => Spec.num (be 2 v ++ (vs.flatMap (be 2) ++ tail)) (2 * j) 2) ∘ Nat.succ) =
        fun j => Spec.num (vs.flatMap (be 2) ++ tail) (2 * j) 2 := by
      funext j
      have := num_append_right (be 2 v) (vs.flatMap (be 2) ++ tail) (2 * j) 2
      rw [be_length] at this
      simp only [Function.comp_apply, Nat.succ_eq_add_one, Nat.mul_add, Nat.mul_one]
      rw [Nat.add_comm (2 * j) 2]; exact this
    rw [this, ih (fun w hw => h w (by simp [hw]))]

/-- The bytes of a packed extended part. -/
theorem packExtended_eq (Lb : Lib) (v1 : Bytes) (i q c : Nat) (vs : List Nat) (v2 : Option Bytes) (h1 : v1.length = 20) (hi : i < 2) (hq : q < 2)
    (hc : c < 4) (hv : ∀ v ∈ vs, v < 2 ^ 16) (h2 : v2 ≠ none → vs.length = 8) :
    packExtended Lb ⟨v1, i, q, c, vs.map fun v : Nat => (v : Int), v2⟩ =
      .ok (v1 ++ [flags i q c, 0] ++ vs.flatMap (be 2) ++ v2.elim [] fun v => zeros 22 ++ v) := by
  unfold packExtended
  have e1 := write_new_byte v1 i 0 1
  have e2 := write_last_byte v1 (setBits 0 0 1 i) q 1 2
  have e3 := write_last_byte v1 (setBits (setBits 0 0 1 i) 1 2 q) c 2 4
  rw [h1] at e1 e2 e3
  simp only [packAt, Ref.width, Nat.reduceSub, Lb.enc_ok 1 i (by simpa using hi), Lb.enc_ok 1 q (by simpa using hq),
    Lb.enc_ok 2 c (by simpa using hc), bind, Except.bind, e1, e2, e3, packUInts_eq vs hv]
  have hput : putBytes (v1 ++ [setBits (setBits (setBits 0 0 1 i) 1 2 q) 2 4 c]) 22 (vs.flatMap (be 2)) =
      v1 ++ [flags i q c, 0] ++ vs.flatMap (be 2) := by
    have := putBytes_end (v1 ++ [flags i q c, 0]) (vs.flatMap (be 2))
    rw [← this]
    simp [putBytes, grow, h1, zeros, flags]
  rw [hput]
  cases v2 with
  | none => simp
  | some v =>
    have h8 := h2 (by simp)
    have hl : (v1 ++ [flags i q c, 0] ++ vs.flatMap (be 2)).length = 38 := by
      simp only [List.length_append, flatMap_be_length, h1, h8, List.length_cons, List.length_nil]
    simp only [Option.elim_some]
    have := putBytes_end (v1 ++ [flags i q c, 0] ++ vs.flatMap (be 2) ++ zeros 22) v
    rw [← List.append_assoc, ← this]
    congr 1
    simp only [putBytes, grow, List.length_append, hl]
    simp [zeros, hl]


/-- The extended part read back. -/
theorem extended_roundtrip (Lb : Lib) (sg : Bool) (v1 : Bytes) (i q c : Nat) (vs : List Nat) (v2 : Option Bytes) (h1 : v1.length = 20) (hi : i < 2)
    (hq : q < 2) (hc : c < 4) (hv : ∀ v ∈ vs, v < 2 ^ 16) (hn : 1 ≤ vs.length ∧ vs.length ≤ 8) (h2 : v2 ≠ none → vs.length = 8) (h3 : v2 ≠ some []) :
    ∃ e, packExtended Lb ⟨v1, i, q, c, vs.map fun v : Nat => (v : Int), v2⟩ = .ok e ∧ 24 ≤ e.length ∧
      e.length = 22 + 2 * vs.length + v2.elim 0 (fun v => 22 + v.length) ∧
      unpackExtended sg e = .ok ⟨v1, some i, some q, some c, some vs, v2⟩ := by
  refine ⟨_, packExtended_eq Lb v1 i q c vs v2 h1 hi hq hc hv h2, ?_, ?_, ?_⟩
  · simp only [List.length_append, flatMap_be_length, h1, List.length_cons, List.length_nil]; omega
  · cases v2 <;> simp only [List.length_append, flatMap_be_length, h1, List.length_cons, List.length_nil, Option.elim_none, Option.elim_some,
      zeros, List.length_replicate] <;> omega
  · rw [extended_eq]
    generalize htl : (v2.elim [] fun v => zeros 22 ++ v) = tl
    have hlen : (v1 ++ [flags i q c, 0] ++ vs.flatMap (be 2) ++ tl).length = 22 + 2 * vs.length + tl.length := by
      simp only [List.length_append, flatMap_be_length, h1, List.length_cons, List.length_nil]
    have hflag : Spec.byteAt (v1 ++ [flags i q c, 0] ++ vs.flatMap (be 2) ++ tl) 20 = (flags i q c).toNat := by
      have := byteAt_append_right v1 ([flags i q c, 0] ++ (vs.flatMap (be 2) ++ tl)) 0
      rw [h1] at this
      rw [List.append_assoc, List.append_assoc]
      exact this
    obtain ⟨r1, r2, r3⟩ := flags_read i hi q hq c hc
    have hmin : min ((22 + 2 * vs.length + tl.length - 22) / 2) 8 = vs.length := by
      cases v2 with
      | none => subst htl; simp; omega
      | some v => have := h2 (by simp); omega
    have hver : Spec.versionDescriptors (v1 ++ [flags i q c, 0] ++ vs.flatMap (be 2) ++ tl) = vs := by
      unfold Spec.versionDescriptors
      rw [hlen, hmin]
      have := num_flatMap_be vs hv tl
      conv => rhs; rw [← this]
      apply List.map_congr_left
      intro j _
      have := num_append_right (v1 ++ [flags i q c, 0]) (vs.flatMap (be 2) ++ tl) (2 * j) 2
      rw [show (v1 ++ [flags i q c, 0]).length = 22 by simp [h1], ← List.append_assoc] at this
      exact this
    have hv2 : (if 61 ≤ (v1 ++ [flags i q c, 0] ++ vs.flatMap (be 2) ++ tl).length then
        some ((v1 ++ [flags i q c, 0] ++ vs.flatMap (be 2) ++ tl).drop 60) else none) = v2 := by
      rw [hlen]
      cases v2 with
      | none => subst htl; rw [if_neg (by simp; omega)]
      | some v =>
        have h8 := h2 (by simp)
        have hne : v ≠ [] := fun he => h3 (by rw [he])
        have hpos := List.length_pos_iff.2 hne
        subst htl
        rw [if_pos (by simp [zeros]; omega)]
        congr 1
        show (v1 ++ [flags i q c, 0] ++ vs.flatMap (be 2) ++ (zeros 22 ++ v)).drop 60 = v
        rw [← List.append_assoc]
        exact List.drop_left' (by simp only [List.length_append, flatMap_be_length, h1, h8, List.length_cons, List.length_nil, zeros, List.length_replicate])
    rw [hv2, hver, hlen, if_pos (by omega), if_pos (by omega), if_pos (by omega), if_pos (by omega)]
    simp only [Spec.bitAt, Spec.bitsAt, hflag, r1, r2, r3]
    congr 2
    rw [List.append_assoc, List.append_assoc, List.take_append_of_le_length (by omega), List.take_of_length_le (by omega)]

/-- A text that fits its place, without a space at its end (the padding). -/
def GoodText (n : Nat) (t : Bytes) : Prop := Spec.Ascii t ∧ t.length ≤ n ∧ ∀ c, t.getLast? = some c → c ≠ 0x20

theorem text_roundtrip (L : BufLib) (n : Nat) (t : Bytes) (h : GoodText n t) :
    ∃ out, packText L 0x20 n t = .ok out ∧ out.length = n ∧ textOf L (some 0x20) out = .ok t := by
  obtain ⟨ha, hl, hz⟩ := h
  refine ⟨t ++ List.replicate (n - t.length) 0x20, ?_, by simp; omega, ?_⟩
  · unfold packText
    rw [if_pos ⟨(isAscii_iff t).2 ha, hl⟩]
  · rw [textOf_ascii L _ _ (Ascii.append ha (ascii_replicate _ _ (by decide))), withoutTail_pad _ _ _ hz]

/-- Values of the extended part for which the fields have room. -/
structure ExtendedValues where
  vendor1 : Bytes
  ius : Nat
  qas : Nat
  clocking : Nat
  versions : List Nat
  vendor2 : Option Bytes

/-- 20 vendor bytes; one to eight version descriptors, all eight if vendor bytes follow; at most 224 bytes in all, since ADDITIONAL LENGTH is
one byte. -/
def ExtendedValues.Good (x : ExtendedValues) : Prop :=
  x.vendor1.length = 20 ∧ x.ius < 2 ∧ x.qas < 2 ∧ x.clocking < 4 ∧ (∀ v ∈ x.versions, v < 2 ^ 16) ∧ 1 ≤ x.versions.length ∧ x.versions.length ≤ 8 ∧
  (x.vendor2 ≠ none → x.versions.length = 8) ∧ x.vendor2 ≠ some [] ∧ 22 + 2 * x.versions.length + x.vendor2.elim 0 (fun v => 22 + v.length) ≤ 224

def ExtendedValues.args (x : ExtendedValues) : ExtendedArgs :=
  ⟨x.vendor1, x.ius, x.qas, x.clocking, x.versions.map fun v : Nat => (v : Int), x.vendor2⟩

def ExtendedValues.object (x : ExtendedValues) : Extended := ⟨x.vendor1, some x.ius, some x.qas, some x.clocking, some x.versions, x.vendor2⟩

/-- ADDITIONAL LENGTH for an extended part of these values. -/
def additional : Option ExtendedValues → Int
  | none => 31
  | some x => ((31 + (22 + 2 * x.versions.length + x.vendor2.elim 0 (fun v => 22 + v.length)) : Nat) : Int)

/-- The integer attributes are in the range of their fields. -/
def StandardArgs.InRange (a : StandardArgs) : Prop :=
  (0 ≤ a.type ∧ a.type < 32) ∧ (0 ≤ a.qualifier ∧ a.qualifier < 8) ∧ (0 ≤ a.version ∧ a.version < 256) ∧
  (0 ≤ a.responseDataFormat ∧ a.responseDataFormat < 16) ∧ (0 ≤ a.tpgs ∧ a.tpgs < 4) ∧
  ∀ v ∈ [a.cong, a.rmb, a.hisup, a.normaca, a.protect, a.threepc, a.acc, a.sccs, a.addr16, a.multiP, a.encServ, a.cmdQue, a.sync, a.wbus16],
    0 ≤ v ∧ v < 2

def standardRefs : List Ref :=
  [.bits 0 0 5, .bits 0 5 8, .bits 1 6 7, .bits 1 7 8, .bytes 2 3, .bits 3 0 4, .bits 3 4 5, .bits 3 5 6, .bytes 4 5, .bits 5 0 1, .bits 5 3 4,
   .bits 5 4 6, .bits 5 6 7, .bits 5 7 8, .bits 6 0 1, .bits 6 4 5, .bits 6 6 7, .bits 7 1 2, .bits 7 4 5, .bits 7 5 6]

theorem standardFits (a : StandardArgs) (n : Int) (h : a.InRange) (hn : 0 ≤ n ∧ n < 256) : Fits (standardValues a n) := by
  obtain ⟨h1, h2, h3, h4, h5, h6⟩ := h
  simp only [List.mem_cons, List.not_mem_nil, or_false, forall_eq_or_imp, forall_eq] at h6
  simp only [Fits, standardValues, List.mem_cons, List.not_mem_nil, or_false, forall_eq_or_imp, forall_eq, Ref.width]
  obtain ⟨k1, k2, k3, k4, k5, k6, k7, k8, k9, k10, k11, k12, k13, k14⟩ := h6
  exact ⟨h1, h2, k1, k2, h3, h4, k3, k4, hn, k5, k6, h5, k7, k8, k9, k10, k11, k12, k13, k14⟩

theorem slice_at (a b c : Bytes) : slice (a ++ b ++ c) a.length (a.length + b.length) = b := by
  rw [slice, List.take_append_of_le_length (by simp), List.take_of_length_le (by simp), List.drop_left]

/-- **C45.** Packing and unpacking returns what was packed, with and without the extended part, whatever follows in the buffer. -/
theorem C45_roundtrip (L : BufLib) (Lb : Lib) (a : StandardArgs) (ext : Option ExtendedValues) (rest : Bytes) (ha : a.InRange)
    (hv : GoodText 8 a.vendor) (hp : GoodText 16 a.product) (hr : GoodText 4 a.revision) (hx : ∀ x, ext = some x → x.Good)
    (hae : a.extended = ext.map ExtendedValues.args) :
    ∃ out, packStandard L Lb a = .ok out ∧ out.length = (additional ext).toNat + 5 ∧
      standardInquiry L (out ++ rest) = .ok
        { page := ⟨[("type", a.type), ("qualifier", a.qualifier)],
            [("cong", a.cong), ("rmb", a.rmb), ("version", a.version), ("response_data_format", a.responseDataFormat), ("hisup", a.hisup),
             ("normaca", a.normaca), ("additional_length", additional ext), ("protect", a.protect), ("threepc", a.threepc), ("tpgs", a.tpgs),
             ("acc", a.acc), ("sccs", a.sccs), ("addr16", a.addr16), ("multi_p", a.multiP), ("enc_serv", a.encServ), ("cmd_que", a.cmdQue),
             ("sync", a.sync), ("wbus16", a.wbus16)]⟩
          vendor := a.vendor, product := a.product, revision := a.revision, extended := ext.map ExtendedValues.object } := by
  obtain ⟨v, hv1, hv2, hv3⟩ := text_roundtrip L 8 _ hv
  obtain ⟨p, hp1, hp2, hp3⟩ := text_roundtrip L 16 _ hp
  obtain ⟨r, hr1, hr2, hr3⟩ := text_roundtrip L 4 _ hr
  -- the extended part
  have hext : ∃ e : Option Bytes, packExtendedIf Lb a.extended = .ok e ∧ additionalLength e = additional ext ∧
      (0 ≤ additional ext ∧ additional ext < 256) ∧ (additional ext).toNat = 31 + (e.getD []).length ∧ (ext = none ↔ e = none) ∧
      ∀ x, ext = some x → unpackExtended L.sg (e.getD []) = .ok x.object ∧ 24 ≤ (e.getD []).length := by
    cases ext with
    | none => exact ⟨none, by rw [hae]; rfl, rfl, by decide, rfl, by simp, by simp⟩
    | some x =>
      obtain ⟨g1, g2, g3, g4, g5, g6, g7, g8, g9, g10⟩ := hx x rfl
      obtain ⟨e, he, hel, hlen, hu⟩ := extended_roundtrip Lb L.sg x.vendor1 x.ius x.qas x.clocking x.versions x.vendor2 g1 g2 g3 g4 g5 ⟨g6, g7⟩ g8 g9
      refine ⟨some e, ?_, ?_, ?_, ?_, by simp, ?_⟩
      · rw [hae]
        simp only [Option.map_some, packExtendedIf, ExtendedValues.args, he, Except.map]
      · simp only [additionalLength, additional, Option.elim_some, hlen]; omega
      · simp only [additional]; omega
      · simp only [additional, Option.getD_some, hlen]; omega
      · intro y hy
        cases hy
        exact ⟨hu, hel⟩
  obtain ⟨e, he, hadd, hrange, htoNat, hnone, hue⟩ := hext
  have hw : ∀ f ∈ standardValues a (additional ext), f.2.1.WellFormed := by
    simp [standardValues, Ref.WellFormed]
  have hd : (standardValues a (additional ext)).Pairwise fun f g => f.2.1.Disjoint g.2.1 :=
    pairwise_disjoint _ standardRefs rfl (by decide) (by decide)
  have hf := standardFits a (additional ext) ha hrange
  obtain ⟨h, hh⟩ := packAt_ok Lb _ [] hf
  have hl : h.length = 8 := packed_length Lb _ h 8 hw hd hh (by simp [standardValues, Ref.stop])
    ⟨("wbus16", .bits 7 5 6, a.wbus16), by simp [standardValues], rfl⟩
  have hb : putBytes (putBytes (putBytes h 8 v) 16 p) 32 r = h ++ v ++ p ++ r := by
    have e1 := putBytes_end h v
    have e2 := putBytes_end (h ++ v) p
    have e3 := putBytes_end (h ++ v ++ p) r
    rw [hl] at e1
    rw [show (h ++ v).length = 16 by simp [hl, hv2]] at e2
    rw [show (h ++ v ++ p).length = 32 by simp [hl, hv2, hp2]] at e3
    rw [e1, e2, e3]
  have hbl : (h ++ v ++ p ++ r).length = 36 := by simp [hl, hv2, hp2, hr2]
  refine ⟨h ++ v ++ p ++ r ++ e.getD [], ?_, ?_, ?_⟩
  · unfold packStandard
    rw [he]
    simp only [bind, Except.bind, hadd, hh, hv1, hp1, hr1, hb]
    cases e with
    | none => simp
    | some e =>
      simp only [Option.elim_some, Option.getD_some]
      rw [← hbl, putBytes_end]
  · rw [htoNat, List.length_append, hbl]; omega
  · have hpage : fixedPage L standardFields [] (h ++ (v ++ p ++ r ++ e.getD [] ++ rest)) = .ok ⟨[("type", a.type), ("qualifier", a.qualifier)],
        [("cong", a.cong), ("rmb", a.rmb), ("version", a.version), ("response_data_format", a.responseDataFormat), ("hisup", a.hisup),
         ("normaca", a.normaca), ("additional_length", additional ext), ("protect", a.protect), ("threepc", a.threepc), ("tpgs", a.tpgs),
         ("acc", a.acc), ("sccs", a.sccs), ("addr16", a.addr16), ("multi_p", a.multiP), ("enc_serv", a.encServ), ("cmd_que", a.cmdQue),
         ("sync", a.sync), ("wbus16", a.wbus16)]⟩ := by
      have h1 := unpackFields_packed L.sg Lb _ ((standardValues a (additional ext)).take 2) h (v ++ p ++ r ++ e.getD [] ++ rest) hw hd hf
        (fun g hg => List.mem_of_mem_take hg) hh
      have h2 := unpackFields_packed L.sg Lb _ ((standardValues a (additional ext)).drop 2) h (v ++ p ++ r ++ e.getD [] ++ rest) hw hd hf
        (fun g hg => List.mem_of_mem_drop hg) hh
      simp only [standardValues, List.take_succ_cons, List.take_zero, List.drop_succ_cons, List.drop_zero, List.map_cons, List.map_nil] at h1 h2
      unfold fixedPage standardFields
      rw [peripheral_bits, h1, h2]
      rfl
    have hs1 : slice (h ++ (v ++ p ++ r ++ e.getD [] ++ rest)) 8 16 = v := by
      have := slice_at h v (p ++ r ++ e.getD [] ++ rest)
      simpa only [hl, hv2, List.append_assoc] using this
    have hs2 : slice (h ++ (v ++ p ++ r ++ e.getD [] ++ rest)) 16 32 = p := by
      have := slice_at (h ++ v) p (r ++ e.getD [] ++ rest)
      simpa only [List.length_append, hl, hv2, hp2, List.append_assoc] using this
    have hs3 : slice (h ++ (v ++ p ++ r ++ e.getD [] ++ rest)) 32 36 = r := by
      have := slice_at (h ++ v ++ p) r (e.getD [] ++ rest)
      simpa only [List.length_append, hl, hv2, hp2, hr2, List.append_assoc] using this
    have hs4 : slice (h ++ (v ++ p ++ r ++ e.getD [] ++ rest)) 36 (36 + (e.getD []).length) = e.getD [] := by
      have := slice_at (h ++ v ++ p ++ r) (e.getD []) rest
      simpa only [List.length_append, hl, hv2, hp2, hr2, List.append_assoc] using this
    unfold standardInquiry
    rw [show h ++ v ++ p ++ r ++ e.getD [] ++ rest = h ++ (v ++ p ++ r ++ e.getD [] ++ rest) by simp only [List.append_assoc], hpage]
    simp only [bind, Except.bind, hs1, hs2, hs3, hv3, hp3, hr3]
    rw [show get [("cong", a.cong), ("rmb", a.rmb), ("version", a.version), ("response_data_format", a.responseDataFormat), ("hisup", a.hisup),
         ("normaca", a.normaca), ("additional_length", additional ext), ("protect", a.protect), ("threepc", a.threepc), ("tpgs", a.tpgs),
         ("acc", a.acc), ("sccs", a.sccs), ("addr16", a.addr16), ("multi_p", a.multiP), ("enc_serv", a.encServ), ("cmd_que", a.cmdQue),
         ("sync", a.sync), ("wbus16", a.wbus16)] "additional_length" = additional ext from rfl]
    cases ext with
    | none => rw [if_neg (by simp [additional])]; rfl
    | some x =>
      obtain ⟨hu, h24⟩ := hue x rfl
      rw [if_pos (by omega), show (additional (some x) + 5).toNat = 36 + (e.getD []).length by omega, hs4, hu]
      rfl

/-- Outside these conditions the round trip fails although every value fits its field. The class has no length for `vendor_specific_1` and
does not carry the number of version descriptors: a vendor part of one byte comes back with 20 bytes; one descriptor followed by vendor bytes
comes back as eight; an empty list of descriptors comes back as `None`. -/
theorem C45_roundtrip_false (Lb : Lib) (sg : Bool) :
    (∃ e x, packExtended Lb ⟨[7], 0, 0, 0, [5], none⟩ = .ok e ∧ unpackExtended sg e = .ok x ∧ x.vendor1 = 7 :: zeros 19) ∧
    (∃ e x, packExtended Lb ⟨zeros 20, 0, 0, 0, [5], some [9]⟩ = .ok e ∧ unpackExtended sg e = .ok x ∧ x.versions = some [5, 0, 0, 0, 0, 0, 0, 0]) ∧
    (∃ e x, packExtended Lb ⟨zeros 20, 0, 0, 0, [], none⟩ = .ok e ∧ unpackExtended sg e = .ok x ∧ x.versions = none) := by
  have h1 : Lb.enc 1 0 = .ok 0 := Lb.enc_ok 1 0 (by decide)
  have h2 : Lb.enc 2 0 = .ok 0 := Lb.enc_ok 2 0 (by decide)
  have hp : ∀ v1 vs v2, packExtended Lb ⟨v1, 0, 0, 0, vs, v2⟩ = packExtended Lib.strict ⟨v1, 0, 0, 0, vs, v2⟩ := by
    intro v1 vs v2
    have s1 : Lib.strict.enc 1 0 = .ok 0 := rfl
    have s2 : Lib.strict.enc 2 0 = .ok 0 := rfl
    simp only [packExtended, packAt, Ref.width, Nat.reduceSub, h1, h2, s1, s2, bind, Except.bind]
  simp only [hp]
  refine ⟨⟨_, _, rfl, extended_eq sg _, ?_⟩, ⟨_, _, rfl, extended_eq sg _, ?_⟩, ⟨_, _, rfl, extended_eq sg _, ?_⟩⟩ <;> decide

/-- The conditions are met: a disk as in the library's tests, without and with all of the extended part. -/
example : (⟨0, 0, 0, 0, 6, 2, 0, 0, 0, 0, 1, 0, 0, 0, 0, 0, 1, 0, 0, [0x4E], [0x49, 0x20, 0x42], [], none⟩ : StandardArgs).InRange ∧
    GoodText 8 [0x4E] ∧ GoodText 16 [0x49, 0x20, 0x42] ∧ GoodText 4 [] ∧
    (⟨zeros 20, 1, 0, 3, [1, 2, 3, 4, 5, 6, 7, 0xFFFF], some [1]⟩ : ExtendedValues).Good ∧
    (⟨zeros 20, 1, 0, 3, [0x60], none⟩ : ExtendedValues).Good := by
  refine ⟨?_, ⟨by decide, by decide, ?_⟩, ⟨by decide, by decide, ?_⟩, ⟨by decide, by decide, ?_⟩, ?_, ?_⟩
  · simp [StandardArgs.InRange]
  · intro c h; cases h; decide
  · intro c h; cases h; decide
  · intro c h; cases h
  · simp [ExtendedValues.Good, zeros]
  · simp [ExtendedValues.Good, zeros]

example : Spec.Ascii (((zeros 8 ++ List.replicate 28 0x41).drop 8).take 28) := by decide

/-! ## C47 — ATA information -/

theorem pick_text (b : Bytes) (first last : Nat) (idx : List Nat) (hi : idx = (List.range (last + 1 - first)).flatMap
    (fun k => [2 * (first + k) + 1, 2 * (first + k)])) (h : 2 * last + 2 ≤ b.length) : pick b idx = Spec.wordText b first last := by
  subst hi
  unfold pick Spec.wordText
  rw [List.filterMap_flatMap]
  simp only [List.flatMap_def]
  congr 1
  apply List.map_congr_left
  intro k hk
  rw [List.mem_range] at hk
  simp only [List.filterMap_cons, List.filterMap_nil, List.getElem?_eq_getElem (show 2 * (first + k) + 1 < b.length by omega),
    List.getElem?_eq_getElem (show 2 * (first + k) < b.length by omega), List.getD_eq_getElem?_getD, Option.getD_some]

/-- Serial number and firmware revision are the texts of words 10 to 19 and 23 to 26 (without the padding at their ends); the model number is the text of
words 27 to 45. -/
theorem C47_identify_partial (L : BufLib) (i : Bytes) (h : 512 ≤ i.length) (h1 : Spec.Ascii (Spec.wordText i 10 19))
    (h2 : Spec.Ascii (Spec.wordText i 23 26)) (h3 : Spec.Ascii (Spec.wordText i 27 45)) :
    ataIdentify L i = .ok ⟨L.trim (Spec.wordText i 10 19), L.trim (Spec.wordText i 23 26),
      L.trim (Spec.wordText i 27 45)⟩ := by
  unfold ataIdentify
  rw [pick_text i 10 19 serialIdx (by decide) (by omega), pick_text i 23 26 firmwareIdx (by decide) (by omega),
    pick_text i 27 45 modelIdx (by decide) (by omega), textOf_default L _ h1, textOf_default L _ h2, textOf_default L _ h3]
  rfl

/-- The model number is the text of words 27 to 46: false. Word 46 is not read, the last two of the forty characters are lost. -/
theorem C47_model_false (L : BufLib) :
    ∃ i : Bytes, i.length = 512 ∧ Spec.Ascii i ∧
      ∃ x, ataIdentify L i = .ok x ∧ x.model ≠ L.trim (Spec.wordText i 27 46) ∧ x.model.length = 38 ∧
        (L.trim (Spec.wordText i 27 46)).length = 40 := by
  have ha : Spec.Ascii (List.replicate 512 0x41) := ascii_replicate _ _ (by decide)
  have hw : ∀ N f l, 2 * l + 2 ≤ N → f ≤ l → Spec.wordText (List.replicate N 0x41) f l = List.replicate (2 * (l + 1 - f)) 0x41 := by
    intro N f l hl hf
    unfold Spec.wordText
    rw [List.eq_replicate_iff]
    constructor
    · simp [List.map_const']; omega
    · intro c hc
      simp only [List.mem_flatMap, List.mem_range] at hc
      obtain ⟨k, hk, hc⟩ := hc
      rw [List.getD_eq_getElem?_getD, List.getD_eq_getElem?_getD, List.getElem?_replicate_of_lt (by omega), List.getElem?_replicate_of_lt (by omega)] at hc
      simpa using hc
  have hA : ∀ n, Spec.Ascii (List.replicate n 0x41) := fun n => ascii_replicate n _ (by decide)
  have ht : ∀ n, L.trim (List.replicate n 0x41) = List.replicate n 0x41 := by
    intro n
    refine trim_whole L ?_
    intro c hc
    have := List.eq_of_mem_replicate (List.mem_of_getLast? hc)
    rw [this]; decide
  refine ⟨List.replicate 512 0x41, List.length_replicate, ha, _, C47_identify_partial L _ (by rw [List.length_replicate]; exact Nat.le_refl _) ?_ ?_ ?_, ?_, ?_, ?_⟩
  · rw [hw 512 10 19 (by omega) (by omega)]; exact hA _
  · rw [hw 512 23 26 (by omega) (by omega)]; exact hA _
  · rw [hw 512 27 45 (by omega) (by omega)]; exact hA _
  · simp only [hw 512 27 45 (by omega) (by omega), hw 512 27 46 (by omega) (by omega), ht]
    intro h
    have := congrArg List.length h
    simp at this
  · simp only [hw 512 27 45 (by omega) (by omega), ht, List.length_replicate]
  · simp only [hw 512 27 46 (by omega) (by omega), ht, List.length_replicate]

theorem wordText_slice (b : Bytes) (f l : Nat) (hl : l < 256) :
    Spec.wordText (slice b 60 572) f l = Spec.wordText (b.drop 60) f l := by
  unfold Spec.wordText
  simp only [List.flatMap_def]
  congr 1
  apply List.map_congr_left
  intro k hk
  rw [List.mem_range] at hk
  simp only [slice, List.getD_eq_getElem?_getD, List.getElem?_drop, List.getElem?_take]
  rw [if_pos (by omega), if_pos (by omega)]

theorem pick_lba (b : Bytes) (h : 572 ≤ b.length) :
    pick (slice b 36 56) [4, 5, 6, 8, 9, 10] = [40, 41, 42, 44, 45, 46].map fun i => b.getD i 0 := by
  have hk : ∀ k, k < 20 → (slice b 36 56)[k]? = some (b.getD (36 + k) 0) := by
    intro k hk
    rw [slice, List.getElem?_drop, List.getElem?_take, if_pos (by omega), List.getElem?_eq_getElem (by omega), List.getD_eq_getElem?_getD,
      List.getElem?_eq_getElem (by omega)]
    rfl
  simp only [pick, List.filterMap_cons, List.filterMap_nil, hk 4 (by omega), hk 5 (by omega), hk 6 (by omega), hk 8 (by omega), hk 9 (by omega),
    hk 10 (by omega)]
  rfl

/-- The whole page: the texts of the SAT layer, the device signature and the identify data at the standard's positions. (`L.sg`: whether the
library reads `be_int_field` as two's complement; the numbers are the standard's if it does not.) -/
theorem C47_page_partial (L : BufLib) (b : Bytes) (h : 572 ≤ b.length)
    (ht : Spec.Ascii ((b.drop 8).take 28)) (hl : Spec.Ascii ([40, 41, 42, 44, 45, 46].map fun i => b.getD i 0))
    (h1 : Spec.Ascii (Spec.wordText (b.drop 60) 10 19)) (h2 : Spec.Ascii (Spec.wordText (b.drop 60) 23 26))
    (h3 : Spec.Ascii (Spec.wordText (b.drop 60) 27 45)) :
    ataInformation L b = .ok
      { page := ⟨Spec.peripheral b, Spec.ataHeader L.sg b⟩
        vendor := L.trim ((b.drop 8).take 8)
        product := L.trim ((b.drop 16).take 16)
        revision := L.trim ((b.drop 32).take 4)
        signature := Spec.deviceSignature L.sg (b.drop 36)
        lba := L.trim ([40, 41, 42, 44, 45, 46].map fun i => b.getD i 0)
        identify := ⟨L.trim (Spec.wordText (b.drop 60) 10 19), L.trim (Spec.wordText (b.drop 60) 23 26),
          L.trim (Spec.wordText (b.drop 60) 27 45)⟩ } := by
  have hp : fixedPage L [.i "page_code" (.bytes 1 2), .i "page_length" (.bytes 2 4), .i "command_code" (.bytes 56 57)] [] b =
      .ok ⟨Spec.peripheral b, Spec.ataHeader L.sg b⟩ := by
    rw [fixedPage_eq L _ _ b (by simp [UField.ref, Ref.Ok]) (by simp) (by omega) (by simp [fieldsEnd, UField.ref, Ref.stop]; omega) (by simp [catsEnd])]
    simp only [List.map_cons, List.map_nil, UField.name, fieldVal, refNum, intValue, Nat.reduceSub, num_one, List.append_nil]
    rfl
  have hsl : (slice b 36 56).length = 20 := by simp [slice]; omega
  have hs : unpackFields L.sg signatureFields (slice b 36 56) = .ok (Spec.deviceSignature L.sg (b.drop 36)) := by
    have hbyte : ∀ k, k < 20 → Spec.byteAt (slice b 36 56) k = Spec.byteAt (b.drop 36) k := by
      intro k hk
      simp only [Spec.byteAt, slice, List.getD_eq_getElem?_getD, List.getElem?_drop, List.getElem?_take]
      rw [if_pos (by omega)]
    have hnum : Spec.num (slice b 36 56) 12 2 = Spec.num (b.drop 36) 12 2 := by
      simp only [Spec.num, hbyte 12 (by omega), Nat.add_zero, hbyte (12 + 1) (by omega)]
    rw [unpackFields_eq L.sg _ _ (by simp [signatureFields, UField.ref, Ref.Ok]) (by simp [signatureFields, fieldsEnd, UField.ref, Ref.stop, hsl])]
    simp only [signatureFields, List.map_cons, List.map_nil, UField.name, fieldVal, refNum, intValue, Nat.reduceSub, num_one, hnum,
      Spec.bitsAt, hbyte 0 (by omega), hbyte 1 (by omega), hbyte 2 (by omega), hbyte 3 (by omega), hbyte 7 (by omega)]
    rfl
  have hsub : ∀ a n, 8 ≤ a → a + n ≤ 36 → Spec.Ascii (slice b a (a + n)) := by
    intro a n h8 h36 c hc
    apply ht c
    rw [take_drop_eq_slice]
    obtain ⟨i, hi, rfl⟩ := List.getElem_of_mem hc
    simp only [slice, List.length_drop, List.length_take] at hi
    refine List.mem_iff_getElem.2 ⟨i + (a - 8), by simp [slice]; omega, ?_⟩
    simp only [slice, List.getElem_drop, List.getElem_take]
    congr 1; omega
  have hi : ataIdentify L (slice b 60 572) = .ok ⟨L.trim (Spec.wordText (b.drop 60) 10 19),
      L.trim (Spec.wordText (b.drop 60) 23 26), L.trim (Spec.wordText (b.drop 60) 27 45)⟩ := by
    have := C47_identify_partial L (slice b 60 572) (by simp [slice]; omega)
    rw [wordText_slice b 10 19 (by omega), wordText_slice b 23 26 (by omega), wordText_slice b 27 45 (by omega)] at this
    exact this h1 h2 h3
  unfold ataInformation
  rw [hp]
  simp only [bind, Except.bind, take_drop_eq_slice, textOf_default L _ (hsub 8 8 (by omega) (by omega)),
    textOf_default L _ (hsub 16 16 (by omega) (by omega)), textOf_default L _ (hsub 32 4 (by omega) (by omega)), hs, pick_lba b h,
    textOf_default L _ hl, hi]

theorem padded_take {t b : Bytes} {n : Nat} (h : Spec.Padded t b) (hn : t.length ≤ n) : Spec.Padded t (b.take n) := by
  obtain ⟨h1, k, h2 | h2⟩ := h
  · exact ⟨h1, min (n - t.length) k, .inl (by rw [h2, List.take_append, List.take_of_length_le hn, List.take_replicate])⟩
  · exact ⟨h1, min (n - t.length) k, .inr (by rw [h2, List.take_append, List.take_of_length_le hn, List.take_replicate])⟩

theorem padded_ascii {t b : Bytes} (h : Spec.Padded t b) (ha : Spec.Ascii t) : Spec.Ascii b := by
  obtain ⟨-, k, rfl | rfl⟩ := h
  · exact Ascii.append ha (ascii_replicate _ _ (by decide))
  · exact Ascii.append ha (ascii_replicate _ _ (by decide))

theorem ascii_slices {b : Bytes} (h1 : Spec.Ascii ((b.drop 8).take 8)) (h2 : Spec.Ascii ((b.drop 16).take 16)) (h3 : Spec.Ascii ((b.drop 32).take 4)) :
    Spec.Ascii ((b.drop 8).take 28) := by
  have : (b.drop 8).take 28 = (b.drop 8).take 8 ++ ((b.drop 16).take 16 ++ (b.drop 32).take 4) := by
    rw [show (28 : Nat) = 8 + (16 + 4) from rfl, List.take_add, List.take_add, List.drop_drop, List.drop_drop]
  rw [this]
  exact Ascii.append h1 (Ascii.append h2 h3)

theorem wordText_45 (i : Bytes) : Spec.wordText i 27 45 = (Spec.wordText i 27 46).take 38 := by
  simp [Spec.wordText, List.range, List.range.loop]

/-- What a user asks the page for: the texts of the SAT layer and of the drive, for a device that fills them up with NULs or with spaces (ATA: with
spaces), in whatever way the library reads signs and joined references. For model numbers of at most 38 characters. -/
theorem C47_texts_partial (L : BufLib) (b vendor product revision serial firmware model : Bytes) (h : 572 ≤ b.length)
    (hv : Spec.Padded vendor ((b.drop 8).take 8)) (hp : Spec.Padded product ((b.drop 16).take 16)) (hr : Spec.Padded revision ((b.drop 32).take 4))
    (hl : Spec.Ascii ([40, 41, 42, 44, 45, 46].map fun i => b.getD i 0))
    (hs : Spec.Padded serial (Spec.wordText (b.drop 60) 10 19)) (hf : Spec.Padded firmware (Spec.wordText (b.drop 60) 23 26))
    (hm : Spec.Padded model (Spec.wordText (b.drop 60) 27 46)) (hm38 : model.length ≤ 38)
    (ha : Spec.Ascii (vendor ++ product ++ revision ++ serial ++ firmware ++ model)) :
    ∃ r, ataInformation L b = .ok r ∧ r.vendor = vendor ∧ r.product = product ∧ r.revision = revision ∧
      r.identify = ⟨serial, firmware, model⟩ := by
  have hm' := padded_take hm hm38
  rw [← wordText_45] at hm'
  have sub : ∀ t, (∀ c ∈ t, c ∈ vendor ++ product ++ revision ++ serial ++ firmware ++ model) → Spec.Ascii t := fun t ht c hc => ha c (ht c hc)
  refine ⟨_, C47_page_partial L b h
    (ascii_slices (padded_ascii hv (sub _ (by simp +contextual))) (padded_ascii hp (sub _ (by simp +contextual))) (padded_ascii hr (sub _ (by simp +contextual)))) hl
    (padded_ascii hs (sub _ (by simp +contextual))) (padded_ascii hf (sub _ (by simp +contextual))) (padded_ascii hm' (sub _ (by simp +contextual))),
    trim_padded L hv, trim_padded L hp, trim_padded L hr, ?_⟩
  rw [trim_padded L hs, trim_padded L hf, trim_padded L hm']

/-- If the library reads these fields as two's complement, the page's own code comes back negative. -/
theorem C47_page_code_false (L : BufLib) (b : Bytes) (hsg : L.sg = true) (hb : Spec.byteAt b 1 = 0x89) (h : 572 ≤ b.length)
    (ht : Spec.Ascii ((b.drop 8).take 28)) (hl : Spec.Ascii ([40, 41, 42, 44, 45, 46].map fun i => b.getD i 0))
    (h1 : Spec.Ascii (Spec.wordText (b.drop 60) 10 19)) (h2 : Spec.Ascii (Spec.wordText (b.drop 60) 23 26))
    (h3 : Spec.Ascii (Spec.wordText (b.drop 60) 27 45)) :
    ∃ r, ataInformation L b = .ok r ∧ get r.page.attrs "page_code" = -119 := by
  refine ⟨_, C47_page_partial L b h ht hl h1 h2 h3, ?_⟩
  simp [get, Spec.ataHeader, List.lookup, Spec.asInt, hsg, hb, Spec.signedOf]

/-- A page that meets the hypotheses. -/
example : let b : Bytes := [0, 0x89, 2, 0x38] ++ List.replicate 568 0x30
    Spec.byteAt b 1 = 0x89 ∧ 572 ≤ b.length ∧ Spec.Ascii ((b.drop 8).take 28) ∧ Spec.Ascii ([40, 41, 42, 44, 45, 46].map fun i => b.getD i 0) ∧
    Spec.Ascii (Spec.wordText (b.drop 60) 10 19) ∧ Spec.Ascii (Spec.wordText (b.drop 60) 23 26) ∧ Spec.Ascii (Spec.wordText (b.drop 60) 27 45) := by
  decide +kernel

end Verif.Parse
