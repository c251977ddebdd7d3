import Verif.Cdb.Lemmas
import Verif.Spec.CdbMeaning

/-!
# Lemmas: third party reservations, PERSISTENT RESERVE OUT, and the target's reading of a command
-/

set_option linter.unusedSimpArgs false

namespace Verif.Cdb

theorem longId_iff (L : Lib) (id : Int) (p : Bytes) :
    packAt L [("third_party_device_id", .bytes 0 8, id)] [] = .ok p ↔ ∃ k, L.enc 64 id = .ok k ∧ be 8 k = p := by
  at_iff []

theorem reserve10_iff (L : Lib) (id : Int) (r : Req) :
    reserve10 L id = .ok r ↔
      (id ≤ 0 ∧ r = .write (Spec.Cdb.thirdParty 0x56 false false 0 0) []) ∨
      (0 < id ∧ id < 255 ∧ r = .write (Spec.Cdb.thirdParty 0x56 true false id.toNat 0) []) ∨
      (255 ≤ id ∧ ∃ k, L.enc 64 id = .ok k ∧ r = .write (Spec.Cdb.thirdParty 0x56 true true 0 8) (be 8 k)) := by
  unfold reserve10
  by_cases h : id > 0
  · by_cases h2 : id < 255
    · rw [if_pos h, if_pos h2]
      have := thirdParty_short L 0x56 (by decide) id (by omega) (by omega)
      simp only [Int.reduceToNat, Int.cast_ofNat_Int] at this
      rw [this]
      simp only [ok_bind, Except.ok.injEq, eq_comm (b := r)]
      constructor
      · intro e; exact Or.inr (Or.inl ⟨h, h2, e⟩)
      · rintro (⟨h', _⟩ | ⟨_, _, e⟩ | ⟨h', _⟩)
        · omega
        · exact e
        · omega
    · rw [if_pos h, if_neg h2]
      have := thirdParty_long L 0x56 (by decide)
      simp only [Int.reduceToNat, Int.cast_ofNat_Int] at this
      simp only [bind_eq_ok, longId_iff, this, Except.ok.injEq]
      constructor
      · rintro ⟨_, ⟨k, hk, rfl⟩, _, rfl, rfl⟩
        exact Or.inr (Or.inr ⟨by omega, k, hk, rfl⟩)
      · rintro (⟨h', _⟩ | ⟨_, _, e⟩ | ⟨h', k, hk, rfl⟩)
        · omega
        · omega
        · exact ⟨_, ⟨k, hk, rfl⟩, _, rfl, rfl⟩
  · rw [if_neg h]
    have := thirdParty_none L 0x56 (by decide)
    simp only [Int.reduceToNat, Int.cast_ofNat_Int] at this
    rw [this]
    simp only [ok_bind, Except.ok.injEq, eq_comm (b := r)]
    constructor
    · intro e; exact Or.inl ⟨by omega, e⟩
    · rintro (⟨_, e⟩ | ⟨_, _, e⟩ | ⟨h', _⟩)
      · exact e
      · omega
      · omega

theorem release10_iff (L : Lib) (id : Int) (r : Req) :
    release10 L id = .ok r ↔
      (id ≤ 0 ∧ r = .write (Spec.Cdb.thirdParty 0x57 false false 0 0) []) ∨
      (0 < id ∧ id < 255 ∧ r = .write (Spec.Cdb.thirdParty 0x57 true false id.toNat 0) []) ∨
      (255 ≤ id ∧ ∃ k, L.enc 64 id = .ok k ∧ r = .write (Spec.Cdb.thirdParty 0x57 true true 0 8) (be 8 k)) := by
  unfold release10
  by_cases h : id > 0
  · by_cases h2 : id < 255
    · rw [if_pos h, if_pos h2]
      have := thirdParty_short L 0x57 (by decide) id (by omega) (by omega)
      simp only [Int.reduceToNat, Int.cast_ofNat_Int] at this
      rw [this]
      simp only [ok_bind, Except.ok.injEq, eq_comm (b := r)]
      constructor
      · intro e; exact Or.inr (Or.inl ⟨h, h2, e⟩)
      · rintro (⟨h', _⟩ | ⟨_, _, e⟩ | ⟨h', _⟩)
        · omega
        · exact e
        · omega
    · rw [if_pos h, if_neg h2]
      have := thirdParty_long L 0x57 (by decide)
      simp only [Int.reduceToNat, Int.cast_ofNat_Int] at this
      simp only [bind_eq_ok, longId_iff]
      constructor
      · rintro ⟨_, ⟨k, hk, rfl⟩, c, hc, e⟩
        simp only [be_length, Int.cast_ofNat_Int, this, Except.ok.injEq] at hc
        subst hc
        cases e
        exact Or.inr (Or.inr ⟨by omega, k, hk, rfl⟩)
      · rintro (⟨h', _⟩ | ⟨_, _, e⟩ | ⟨h', k, hk, rfl⟩)
        · omega
        · omega
        · exact ⟨_, ⟨k, hk, rfl⟩, _, by simp only [be_length, Int.cast_ofNat_Int, this]; rfl, rfl⟩
  · rw [if_neg h]
    have := thirdParty_none L 0x57 (by decide)
    simp only [Int.reduceToNat, Int.cast_ofNat_Int] at this
    rw [this]
    simp only [ok_bind, Except.ok.injEq, eq_comm (b := r)]
    constructor
    · intro e; exact Or.inl ⟨by omega, e⟩
    · rintro (⟨_, e⟩ | ⟨_, _, e⟩ | ⟨h', _⟩)
      · exact e
      · omega
      · omega

theorem proutRegisterAndMove_iff (L : Lib) (a : ProutArgs) (bs : Bytes) :
    proutRegisterAndMove L a = .ok bs ↔ ∃ t, a.transportId = some t ∧ ∃ tid, t.pack L = .ok tid ∧
      ∃ k s p u q n, L.enc 64 a.key = .ok k ∧ L.enc 64 a.saKey = .ok s ∧ L.enc 1 a.aptpl = .ok p ∧
        L.enc 1 a.unregister = .ok u ∧ L.enc 16 a.relPort = .ok q ∧ L.enc 32 (tid.length : Int) = .ok n ∧
        be 8 k ++ be 8 s ++ [0, (if u = 1 then 2 else 0) + (if p = 1 then 1 else 0)] ++ be 2 q ++ be 4 n ++ tid = bs := by
  unfold proutRegisterAndMove
  cases ht : a.transportId with
  | none => simp
  | some t =>
    simp only [bind_eq_ok, proutMove_aux, Except.ok.injEq, Option.some.injEq]
    constructor
    · rintro ⟨tid, h1, hd, ⟨k, s, p, u, q, n, e1, e2, e3, e4, e5, e6, rfl⟩, rfl⟩
      exact ⟨t, rfl, tid, h1, k, s, p, u, q, n, e1, e2, e3, e4, e5, e6, rfl⟩
    · rintro ⟨_, rfl, tid, h1, k, s, p, u, q, n, e1, e2, e3, e4, e5, e6, rfl⟩
      exact ⟨tid, h1, _, ⟨k, s, p, u, q, n, e1, e2, e3, e4, e5, e6, rfl⟩, rfl⟩

theorem persistentReserveOut_iff (L : Lib) (a : ProutArgs) (r : Req) :
    persistentReserveOut L a = .ok r ↔ (0 ≤ a.serviceAction ∧ a.serviceAction ≤ 8) ∧
      ∃ params, (if a.serviceAction = 7 then proutRegisterAndMove L a else proutBasic L a) = .ok params ∧
      ∃ t n, L.enc 4 a.prType = .ok t ∧ L.enc 32 (params.length : Int) = .ok n ∧
        r = .write (Spec.Cdb.persistentReserveOut a.serviceAction.toNat t n) params := by
  unfold persistentReserveOut proutParams
  simp only [bind_eq_ok, pyAssert_eq_ok, prout_cdb_aux, Except.ok.injEq, decide_eq_true_eq]
  constructor
  · rintro ⟨params, ⟨_, h1, h2⟩, _, ⟨s, t, n, h3, h4, h5, rfl⟩, rfl⟩
    have : L.enc 5 a.serviceAction = .ok a.serviceAction.toNat := L.enc_int h1.1 (by omega)
    rw [this] at h3
    cases h3
    exact ⟨h1, params, h2, t, n, h4, h5, rfl⟩
  · rintro ⟨h1, params, h2, t, n, h4, h5, rfl⟩
    have : L.enc 5 a.serviceAction = .ok a.serviceAction.toNat := L.enc_int h1.1 (by omega)
    exact ⟨params, ⟨(), h1, h2⟩, _, ⟨_, t, n, this, h4, h5, rfl⟩, rfl⟩

/-! ## What the target reads -/

open Verif.Spec.Cdb

/-- Evaluate the target's reading of a byte string given by the specification. -/
macro "dec" "[" ls:Lean.Parser.Tactic.simpLemma,* "]" : tactic =>
  `(tactic| simp [decode, fld, bit, getBits, slice, List.take_append, List.drop_append, List.drop_eq_nil_of_le,
    List.take_of_length_le, Nat.mod_eq_of_lt, cdb6, cdb10,
    cdb12, cdb16, $ls,*])

theorem decode_read6 (a n : Nat) (ha : a < 2 ^ 21) (hn : n < 2 ^ 8) (d : Bytes) :
    decode (Spec.Cdb.read6 a n) d = some (.read a (if n = 0 then 256 else n)) := by
  have h : a % 16777216 % 2097152 = a := by omega
  dec [Spec.Cdb.read6, h, hn, beNat]

theorem decode_read10 (a n : Nat) (ha : a < 2 ^ 32) (hn : n < 2 ^ 16) (d : Bytes) :
    decode (Spec.Cdb.read10 a n) d = some (.read a n) := by dec [Spec.Cdb.read10, ha, hn]

theorem decode_read12 (a n : Nat) (ha : a < 2 ^ 32) (hn : n < 2 ^ 32) (d : Bytes) :
    decode (Spec.Cdb.read12 a n) d = some (.read a n) := by dec [Spec.Cdb.read12, ha, hn]

theorem decode_read16 (a n : Nat) (ha : a < 2 ^ 64) (hn : n < 2 ^ 32) (d : Bytes) :
    decode (Spec.Cdb.read16 a n) d = some (.read a n) := by dec [Spec.Cdb.read16, ha, hn]

/-- WRITE(6): 256 blocks are written as 0. -/
theorem decode_write6 (a n : Nat) (ha : a < 2 ^ 21) (h0 : 0 < n) (hn : n ≤ 256) (d : Bytes) :
    decode (Spec.Cdb.write6 a n) d = some (.write a n) := by
  have h : a % 16777216 % 2097152 = a := by omega
  have h2 : (if n % 256 = 0 then 256 else n % 256) = n := by split <;> omega
  dec [Spec.Cdb.write6, h, hn, beNat, h2]

theorem decode_write10 (a n : Nat) (ha : a < 2 ^ 32) (hn : n < 2 ^ 16) (d : Bytes) :
    decode (Spec.Cdb.write10 a n) d = some (.write a n) := by dec [Spec.Cdb.write10, ha, hn]

theorem decode_write12 (a n : Nat) (ha : a < 2 ^ 32) (hn : n < 2 ^ 32) (d : Bytes) :
    decode (Spec.Cdb.write12 a n) d = some (.write a n) := by dec [Spec.Cdb.write12, ha, hn]

theorem decode_write16 (a n : Nat) (ha : a < 2 ^ 64) (hn : n < 2 ^ 32) (d : Bytes) :
    decode (Spec.Cdb.write16 a n) d = some (.write a n) := by dec [Spec.Cdb.write16, ha, hn]

theorem decode_writeSame10 (a n : Nat) (ha : a < 2 ^ 32) (hn : n < 2 ^ 16) (d : Bytes) :
    decode (Spec.Cdb.writeSame10 a n) d = some (.writeSame a n) := by dec [Spec.Cdb.writeSame10, ha, hn]

theorem decode_writeSame16 (a n : Nat) (ha : a < 2 ^ 64) (hn : n < 2 ^ 32) (d : Bytes) :
    decode (Spec.Cdb.writeSame16 a n) d = some (.writeSame a n) := by dec [Spec.Cdb.writeSame16, ha, hn]

theorem decode_compareAndWrite (a n : Nat) (ha : a < 2 ^ 64) (hn : n < 2 ^ 8) (d : Bytes) :
    decode (Spec.Cdb.compareAndWrite a n) d = some (.compareAndWrite a n) := by
  dec [Spec.Cdb.compareAndWrite, ha, hn, beNat]

theorem targetRanges_descriptors (rs : List (Nat × Nat)) (rest : Bytes)
    (h : ∀ r ∈ rs, r.1 < 2 ^ 64 ∧ r.2 < 2 ^ 32) :
    targetRanges rs.length (unmapDescriptors rs ++ rest) = rs := by
  induction rs with
  | nil => rfl
  | cons r rs ih =>
    obtain ⟨h1, h2⟩ := h r (List.mem_cons_self ..)
    have e : unmapDescriptors (r :: rs) = be 8 r.1 ++ be 4 r.2 ++ [0, 0, 0, 0] ++ unmapDescriptors rs := by
      simp [unmapDescriptors, unmapDescriptor]
    rw [List.length_cons, targetRanges, e]
    refine List.cons_eq_cons.2 ⟨?_, ?_⟩
    · simp [slice, List.take_append, List.drop_append, Nat.mod_eq_of_lt, h1, h2]
    · rw [← ih fun x hx => h x (List.mem_cons_of_mem _ hx)]
      simp [List.drop_append, List.drop_eq_nil_of_le, ih fun x hx => h x (List.mem_cons_of_mem _ hx)]

theorem targetUnmap_params (rs : List (Nat × Nat)) (len : Nat) (h : ∀ r ∈ rs, r.1 < 2 ^ 64 ∧ r.2 < 2 ^ 32)
    (hl : 16 * rs.length < 2 ^ 16) :
    targetUnmap (be 2 len ++ be 2 (16 * rs.length) ++ [0, 0, 0, 0] ++ unmapDescriptors rs) = rs := by
  have e := targetRanges_descriptors rs [] h
  rw [List.append_nil] at e
  have h1 : 16 * rs.length % 65536 / 16 = rs.length := by omega
  simp [targetUnmap, slice, List.take_append, List.drop_append, List.drop_eq_nil_of_le, h1, e]

theorem decode_unmap (n : Nat) (d : Bytes) : decode (Spec.Cdb.unmap n) d = some (.unmap (targetUnmap d)) := by
  dec [Spec.Cdb.unmap]

theorem decode_testUnitReady (d : Bytes) : decode Spec.Cdb.testUnitReady d = some .testUnitReady := rfl

theorem decode_inquiry (e p n : Nat) (he : e < 2 ^ 1) (hp : p < 2 ^ 8) (hn : n < 2 ^ 16) (d : Bytes) :
    decode (Spec.Cdb.inquiry e p n) d = some (.inquiry e p n) := by
  have : e % 256 % 2 = e := by omega
  dec [Spec.Cdb.inquiry, hp, hn, beNat, this]

theorem decode_readCapacity10 (a p : Nat) (ha : a < 2 ^ 32) (hp : p < 2 ^ 1) (d : Bytes) :
    decode (Spec.Cdb.readCapacity10 a p) d = some (.readCapacity a p) := by
  have : p % 256 % 2 = p := by omega
  dec [Spec.Cdb.readCapacity10, ha, this, be, beNat]
  omega

theorem decode_readCapacity16 (a n p : Nat) (ha : a < 2 ^ 64) (hp : p < 2 ^ 1) (d : Bytes) :
    decode (Spec.Cdb.readCapacity16 a n p) d = some (.readCapacity a p) := by
  have : p % 256 % 2 = p := by omega
  dec [Spec.Cdb.readCapacity16, ha, this, be, beNat]
  omega

theorem decode_reportLuns (s n : Nat) (hs : s < 2 ^ 8) (hn : n < 2 ^ 32) (d : Bytes) :
    decode (Spec.Cdb.reportLuns s n) d = some (.reportLuns s n) := by
  dec [Spec.Cdb.reportLuns, hs, hn, beNat]

theorem decode_rtpg (f n : Nat) (hf : f < 2 ^ 3) (hn : n < 2 ^ 32) (d : Bytes) :
    decode (Spec.Cdb.reportTargetPortGroups f n) d = some (.reportTargetPortGroups f n) := by
  have h1 : (f * 32 + 10) % 256 % 32 = 10 := by omega
  have h2 : (f * 32 + 10) % 256 / 32 = f := by omega
  have h3 : (f * 32 + 10) % 256 / 32 % 8 = f := by omega
  dec [Spec.Cdb.reportTargetPortGroups, hn, h1, h2, h3, hf]

theorem decode_logSense (p s n : Nat) (hp : p < 2 ^ 6) (hs : s < 2 ^ 8) (hn : n < 2 ^ 16) (d : Bytes) :
    decode (Spec.Cdb.logSense p s n) d = some (.logSense p s n) := by
  have h1 : p % 256 % 64 = p := by omega
  dec [Spec.Cdb.logSense, hs, hn, beNat, h1]

theorem decode_rcop (n c : Nat) (hn : n < 2 ^ 32) (d : Bytes) :
    decode (Spec.Cdb.receiveCopyOperatingParameters n c) d = some (.receiveCopyOperatingParameters n) := by
  dec [Spec.Cdb.receiveCopyOperatingParameters, hn]

theorem decode_rdr (v p n : Nat) (hv : v < 2 ^ 1) (hp : p < 2 ^ 8) (hn : n < 2 ^ 16) (d : Bytes) :
    decode (Spec.Cdb.receiveDiagnosticResults v p n) d = some (.receiveDiagnosticResults v p n) := by
  have : v % 256 % 2 = v := by omega
  dec [Spec.Cdb.receiveDiagnosticResults, hp, hn, beNat, this]

theorem decode_reserve6 (d : Bytes) : decode Spec.Cdb.reserve6 d = some (.reserve none) := rfl
theorem decode_release6 (d : Bytes) : decode Spec.Cdb.release6 d = some (.release none) := rfl

theorem thirdPartyId_none (op : UInt8) (d : Bytes) : thirdPartyId (thirdParty op false false 0 0) d = none := by
  simp [thirdPartyId, thirdParty, bit, getBits]

theorem thirdPartyId_short (op : UInt8) (id : Nat) (h : id < 2 ^ 8) (d : Bytes) :
    thirdPartyId (thirdParty op true false id 0) d = some id := by
  simp [thirdPartyId, thirdParty, bit, getBits, fld, slice, beNat, h]

theorem thirdPartyId_long (op : UInt8) (id : Nat) (h : id < 2 ^ 64) :
    thirdPartyId (thirdParty op true true 0 8) (be 8 id) = some id := by
  simp [thirdPartyId, thirdParty, bit, getBits, fld, slice, beNat, h, Nat.mod_eq_of_lt, List.take_of_length_le]

theorem decode_prin (s n : Nat) (hs : s < 2 ^ 5) (hn : n < 2 ^ 16) (d : Bytes) :
    decode (Spec.Cdb.persistentReserveIn s n) d = some (.persistentReserveIn s n) := by
  have : s % 256 % 32 = s := by omega
  dec [Spec.Cdb.persistentReserveIn, hn, this]

theorem decode_prout (s t n : Nat) (hs : s < 2 ^ 5) (ht : t < 2 ^ 4) (d : Bytes) :
    decode (Spec.Cdb.persistentReserveOut s t n) d = some (.persistentReserveOut s t (fld d 0 8) (fld d 8 16)) := by
  have h1 : s % 256 % 32 = s := by omega
  have h2 : t % 256 % 16 = t := by omega
  dec [Spec.Cdb.persistentReserveOut, h1, h2]

end Verif.Cdb
