import Verif.Platform.Win32Overlapped
import Verif.Platform.Win32Lemmas
import Verif.Spec.Overlapped
import Verif.Props.Layout
set_option linter.unusedSimpArgs false
/-! # C91: the structures of overlapped requests; C92: handles are given back -/

namespace Verif.Platform.Win32
open Verif.Spec

theorem littleEndian_append (x y : Bytes) : littleEndian (x ++ y) = littleEndian x + 256 ^ x.length * littleEndian y := by
  induction x with
  | nil => simp [littleEndian]
  | cons b r ih =>
    simp only [List.cons_append, littleEndian, ih, List.length_cons, Nat.pow_succ]
    grind

theorem littleEndian_reverse (bs : Bytes) : littleEndian bs.reverse = beNat bs := by
  induction bs with
  | nil => rfl
  | cons b r ih =>
    simp only [List.reverse_cons, littleEndian_append, ih, beNat, List.length_reverse, littleEndian]
    grind

theorem littleEndian_native {a : Abi} (hl : a.little = true) {n v : Nat} (h : v < 256 ^ n) : littleEndian (native a n v) = v := by
  unfold native
  rw [if_pos hl, littleEndian_reverse, beNat_be_of_lt h]

/-- What an item stands for. -/
def itemValue (a : Abi) (f : Item) (v : Int) : Nat := (v % 256 ^ f.size a).toNat

theorem packItem_ok {a : Abi} (hl : a.little = true) {f : Item} {v : Int} {b : Bytes} (h : packItem a f v = .ok b) :
    b.length = f.size a ∧ littleEndian b = itemValue a f v := by
  have hp : ∀ n : Nat, (0:Int) < 256 ^ n := fun n => Int.pow_pos (by decide)
  cases f with
  | P =>
    simp only [packItem] at h
    split at h
    · cases h
      refine ⟨native_length .., ?_⟩
      apply littleEndian_native hl
      have h1 := Int.emod_lt_of_pos v (hp a.ptr)
      have h2 := Int.emod_nonneg v (Int.ne_of_gt (hp a.ptr))
      have : ((256 ^ a.ptr : Nat) : Int) = 256 ^ a.ptr := by simp
      omega
    · cases h
  | L =>
    simp only [packItem] at h
    split at h
    · rename_i hc
      cases h
      refine ⟨native_length .., ?_⟩
      have h1 : v % 256 ^ a.long = v := Int.emod_eq_of_lt hc.1 hc.2
      simp only [itemValue, Item.size, h1]
      apply littleEndian_native hl
      have : ((256 ^ a.long : Nat) : Int) = 256 ^ a.long := by simp
      omega
    · cases h

theorem packInto_prefix {a : Abi} : ∀ {items acc raw}, packInto a acc items = .ok raw → ∃ t, raw = acc ++ t := by
  intro items
  induction items with
  | nil => intro acc raw h; cases h; exact ⟨[], by simp⟩
  | cons x r ih =>
    intro acc raw h
    obtain ⟨f, v⟩ := x
    simp only [packInto] at h
    split at h
    · obtain ⟨t, ht⟩ := ih h
      exact ⟨_, by rw [ht, List.append_assoc, List.append_assoc]⟩
    · cases h

/-- The items of a format string follow a C declaration. -/
inductive FmtMatches (a : Abi) (m : DataModel) : List (Item × Int) → CDecl → Prop
  | nil : FmtMatches a m [] []
  | cons {nm f v c r d} (hsize : f.size a = c.bytes m) (halign : f.size a = c.alignment m) (hpos : 0 < f.size a) (h : FmtMatches a m r d) :
      FmtMatches a m ((f, v) :: r) ((nm, c) :: d)

theorem leastMultiple_unique {al n o o' : Nat} (h : LeastMultiple al n o) (h' : LeastMultiple al n o') : o = o' :=
  Nat.le_antisymm (h.2.2 o' h'.1 h'.2.1) (h'.2.2 o h.1 h.2.1)

/-- `struct.pack` in native mode puts every item where C puts the field. -/
theorem packInto_natural {a : Abi} (hl : a.little = true) {m : DataModel} {items decl} (hm : FmtMatches a m items decl) :
    ∀ {acc raw fields}, packInto a acc items = .ok raw → Natural m acc.length decl fields →
      raw.length = (if decl = [] then acc.length else endOf fields) ∧
      ∀ (k : Nat) nm off size, fields[k]? = some (nm, off, size) →
        off + size ≤ raw.length ∧
        (items.map fun x => itemValue a x.1 x.2)[k]? = some (littleEndian ((raw.drop off).take size)) := by
  induction hm with
  | nil =>
    intro acc raw fields h hn
    cases h
    simp only [Natural] at hn
    subst hn
    exact ⟨rfl, by simp⟩
  | @cons nm f v c r d hs ha hp hm ih =>
    intro acc raw fields h hn
    simp only [packInto] at h
    split at h
    · rename_i b hb
      obtain ⟨hbl, hbv⟩ := packItem_ok hl hb
      obtain ⟨off, rest, rfl, hlm, hn'⟩ := hn
      have hoff : off = alignUp acc.length (f.size a) := by
        rw [← ha] at hlm
        exact leastMultiple_unique hlm (alignUp_least _ _ hp)
      have hge := alignUp_ge acc.length (f.size a)
      have hlen : (acc ++ zeros (alignUp acc.length (f.size a) - acc.length) ++ b).length = off + c.bytes m := by
        simp only [List.length_append, zeros_length, hbl, hoff, ← hs]; omega
      rw [← hlen] at hn'
      obtain ⟨h1, h2⟩ := ih h hn'
      obtain ⟨t, ht⟩ := packInto_prefix h
      refine ⟨?_, ?_⟩
      · rw [if_neg (by simp), h1]
        cases d with
        | nil =>
          simp only [Natural] at hn'
          subst hn'
          simpa [endOf] using hlen
        | cons x d' =>
          obtain ⟨o', rest', rfl, -, -⟩ := hn'
          rw [if_neg (by simp)]
          rfl
      · intro k nm' off' size' hk
        cases k with
        | succ k => exact h2 k nm' off' size' (by simpa using hk)
        | zero =>
          simp only [List.getElem?_cons_zero, Option.some.injEq, Prod.mk.injEq] at hk
          obtain ⟨-, rfl, rfl⟩ := hk
          refine ⟨by rw [ht, List.length_append, hlen]; omega, ?_⟩
          simp only [List.map_cons, List.getElem?_cons_zero, Option.some.injEq]
          rw [ht, ← hbv]
          congr 1
          have hpre : (acc ++ zeros (alignUp acc.length (f.size a) - acc.length)).length = off := by
            simp only [List.length_append, zeros_length]; omega
          rw [List.append_assoc, ← hpre, List.drop_left, ← hs, ← hbl, List.take_left]
    · cases h

theorem packInto_total {a : Abi} : ∀ (items : List (Item × Int)) (acc : Bytes), (∀ x ∈ items, ∃ b, packItem a x.1 x.2 = .ok b) →
    ∃ raw, packInto a acc items = .ok raw := by
  intro items
  induction items with
  | nil => intro acc _; exact ⟨acc, rfl⟩
  | cons x r ih =>
    intro acc h
    obtain ⟨b, hb⟩ := h x List.mem_cons_self
    obtain ⟨raw, hr⟩ := ih (acc ++ zeros (alignUp acc.length (x.1.size a) - acc.length) ++ b) (fun y hy => h y (List.mem_cons_of_mem _ hy))
    exact ⟨raw, by simp only [packInto, hb, hr]⟩

/-- The data model of the two Windows. -/
def winModel (b : Bool) : DataModel := if b then LLP64 else ILP32

theorem packItem_handle (b : Bool) (h : Nat) (hh : IsHandle (winModel b) h) :
    (∃ bs, packItem (W b) .P (returned h) = .ok bs) ∧ itemValue (W b) .P (returned h) = h := by
  have hval : returned h = if h < 2 ^ 31 then (h : Int) else (h : Int) - 256 ^ (W b).ptr := by
    unfold returned toSigned
    cases b <;> simp only [IsHandle, winModel, LLP64, ILP32, W, win64, win32] at hh ⊢ <;> simp at hh ⊢ <;> omega
  have hr : -(2 ^ (8 * (W b).ptr - 1)) ≤ returned h ∧ returned h < 256 ^ (W b).ptr ∧ (returned h % 256 ^ (W b).ptr).toNat = h := by
    rw [hval]
    cases b <;> simp only [IsHandle, winModel, LLP64, ILP32, W, win64, win32] at hh ⊢ <;> simp at hh ⊢ <;> split <;> omega
  refine ⟨⟨native (W b) (W b).ptr (returned h % 256 ^ (W b).ptr).toNat, ?_⟩, hr.2.2⟩
  simp only [packItem]
  rw [if_pos ⟨hr.1, hr.2.1⟩]

/-- **C91 (a)**: for every handle `CreateEventW` may return, on both Windows, the buffer passed to `DeviceIoControl` and
`GetOverlappedResult` is an `OVERLAPPED` structure as a C compiler lays it out: the handle in `hEvent`, everything else zero. -/
theorem C91_overlapped (b : Bool) (h : Nat) (hh : IsHandle (winModel b) h) :
    ∃ raw, overlapped (W b) (returned h) = .ok raw ∧ HoldsStruct (winModel b) OVERLAPPED [0, 0, 0, 0, h] raw := by
  obtain ⟨⟨bs, hbs⟩, hv⟩ := packItem_handle b h hh
  have hm : FmtMatches (W b) (winModel b) [(.P, 0), (.P, 0), (.L, 0), (.L, 0), (.P, returned h)] OVERLAPPED := by
    unfold OVERLAPPED
    cases b <;> repeat' (first | exact FmtMatches.nil | refine FmtMatches.cons ?_ ?_ ?_ ?_)
    all_goals first | rfl | decide
  have h0 : ∃ x, packItem (W b) .P 0 = .ok x := by cases b <;> exact ⟨_, rfl⟩
  have h1 : ∃ x, packItem (W b) .L 0 = .ok x := by cases b <;> exact ⟨_, rfl⟩
  obtain ⟨raw, hraw⟩ := packInto_total (a := W b) [(.P, 0), (.P, 0), (.L, 0), (.L, 0), (.P, returned h)] []
    (by simp only [List.mem_cons, List.not_mem_nil, or_false]; rintro x (rfl | rfl | rfl | rfl | rfl) <;> first | exact h0 | exact h1 | exact ⟨bs, hbs⟩)
  refine ⟨cBuffer raw, by simp only [overlapped, structPack, hraw], ?_⟩
  intro fields hf
  have hl : (W b).little = true := by cases b <;> rfl
  obtain ⟨k1, k2⟩ := packInto_natural hl hm hraw hf
  rw [if_neg (by simp [OVERLAPPED])] at k1
  refine ⟨fun n hn => ?_, fun k nm off size hk => ?_⟩
  · have hmul : strictest (winModel b) OVERLAPPED ∣ endOf fields := by
      obtain ⟨o1, r1, rfl, l1, n1⟩ := hf
      obtain ⟨o2, r2, rfl, l2, n2⟩ := n1
      obtain ⟨o3, r3, rfl, l3, n3⟩ := n2
      obtain ⟨o4, r4, rfl, l4, n4⟩ := n3
      obtain ⟨o5, r5, rfl, l5, n5⟩ := n4
      simp only [Natural] at n5
      subst n5
      simp only [endOf]
      have e1 := l5.1
      cases b <;> simp [strictest, OVERLAPPED, winModel, C.alignment, C.bytes, LLP64, ILP32] at e1 ⊢ <;> omega
    have := hn.2.2 _ hmul (Nat.le_refl _)
    simp only [cBuffer, List.length_append]
    omega
  · obtain ⟨j1, j2⟩ := k2 k nm off size hk
    have hval : ([(.P, 0), (.P, 0), (.L, 0), (.L, 0), (.P, returned h)] : List (Item × Int)).map (fun x => itemValue (W b) x.1 x.2) = [0, 0, 0, 0, h] := by
      simp only [List.map_cons, List.map_nil, hv]
      cases b <;> rfl
    rw [hval] at j2
    rw [j2, cBuffer]
    congr 2
    rw [List.drop_append_of_le_length (by omega), List.take_append_of_le_length (by rw [List.length_drop]; omega)]

theorem alignUp_mul (k p : Nat) : alignUp (k * p) p = k * p := by
  unfold alignUp
  rw [if_pos (Nat.mul_mod_left k p)]

theorem packPointers {a : Abi} (hl : a.little = true) : ∀ (es : List Int) (acc raw : Bytes) (n : Nat), acc.length = n * a.ptr →
    packInto a acc (es.map fun e => (Item.P, e)) = .ok raw →
    raw.length = (n + es.length) * a.ptr ∧
    ∀ (k : Nat) e, es[k]? = some e → itemValue a .P e = littleEndian ((raw.drop ((n + k) * a.ptr)).take a.ptr) := by
  intro es
  induction es with
  | nil => intro acc raw n hn h; cases h; exact ⟨by simpa using hn, by simp⟩
  | cons e r ih =>
    intro acc raw n hn h
    simp only [List.map_cons, packInto] at h
    split at h
    · rename_i b hb
      obtain ⟨hbl, hbv⟩ := packItem_ok hl hb
      simp only [Item.size] at hbl h
      rw [hn, alignUp_mul, Nat.sub_self, zeros_zero, List.append_nil] at h
      have hlen : (acc ++ b).length = (n + 1) * a.ptr := by rw [List.length_append, hn, hbl, Nat.add_mul]; omega
      obtain ⟨h1, h2⟩ := ih (acc ++ b) raw (n + 1) hlen h
      obtain ⟨t, ht⟩ := packInto_prefix h
      refine ⟨by rw [h1]; congr 1; simp; omega, ?_⟩
      intro k e' hk
      cases k with
      | succ k =>
        have := h2 k e' (by simpa using hk)
        rwa [show n + 1 + k = n + (k + 1) by omega] at this
      | zero =>
        simp only [List.getElem?_cons_zero, Option.some.injEq] at hk
        subst hk
        rw [← hbv, ht, Nat.add_zero, List.append_assoc, ← hn, List.drop_left, ← hbl, List.take_left]
    · cases h

/-- **C91 (b)**: for every list of handles, of any length, the memory passed to the system's `WaitForMultipleObjects` is the array of
these handles, in this order. So the index it returns is an index into the list. -/
theorem C91_array (b : Bool) (hs : List Nat) (hh : ∀ h ∈ hs, IsHandle (winModel b) h) :
    ∃ raw, eventArray (W b) (hs.map returned) = .ok raw ∧ HoldsPointers (winModel b) hs raw := by
  have hl : (W b).little = true := by cases b <;> rfl
  have hp : (W b).ptr = (winModel b).pointer := by cases b <;> rfl
  obtain ⟨raw, hraw⟩ := packInto_total (a := W b) ((hs.map returned).map fun e => (Item.P, e)) [] (by
    intro x hx
    simp only [List.mem_map] at hx
    obtain ⟨e, ⟨h, hm, rfl⟩, rfl⟩ := hx
    exact (packItem_handle b h (hh h hm)).1)
  obtain ⟨h1, h2⟩ := packPointers hl (hs.map returned) [] raw 0 (by simp) hraw
  rw [Nat.zero_add, List.length_map] at h1
  refine ⟨cBuffer raw, by simp only [eventArray, structPack, hraw], ?_, ?_⟩
  · simp only [cBuffer, List.length_append, ← hp]; omega
  · intro k v hk
    have hlt := (List.getElem?_eq_some_iff.1 hk).1
    have := h2 k (returned v) (by simp [hk])
    rw [(packItem_handle b v (hh v (List.mem_of_getElem? hk))).2] at this
    rw [this, ← hp, cBuffer, Nat.zero_add]
    have hle : (k + 1) * (W b).ptr ≤ hs.length * (W b).ptr := Nat.mul_le_mul_right _ hlt
    rw [Nat.add_mul] at hle
    congr 1
    rw [List.drop_append_of_le_length (by omega), List.take_append_of_le_length (by rw [List.length_drop]; omega)]

/-- **C91 (c)**: the control code is the one of the driver's header file: `FILE_DEVICE_CONTROLLER`, function 405h, `METHOD_BUFFERED`,
read and write access. -/
theorem C91_code : ioctlCode = CTL_CODE 4 0x405 0 (1 ||| 2) := by decide

/-- The hypotheses are met by the handles in use (small multiples of four) and by sign-extended ones. -/
example : IsHandle (winModel true) 0x1f4 ∧ IsHandle (winModel false) 0x80000004 ∧ IsHandle (winModel true) 0xfffffffffffffff4 := by
  simp [IsHandle, winModel, LLP64, ILP32]

/-- The placement that `HoldsStruct` speaks of exists: on 64-bit Windows `hEvent` is at offset 24. -/
example : Natural (winModel true) 0 OVERLAPPED
    [("Internal", 0, 8), ("InternalHigh", 8, 8), ("Offset", 16, 4), ("OffsetHigh", 20, 4), ("hEvent", 24, 8)] := by
  refine ⟨_, _, rfl, ⟨by decide, by decide, ?_⟩, _, _, rfl, ⟨by decide, by decide, ?_⟩, _, _, rfl, ⟨by decide, by decide, ?_⟩,
    _, _, rfl, ⟨by decide, by decide, ?_⟩, _, _, rfl, ⟨by decide, by decide, ?_⟩, rfl⟩ <;> intro o _ h <;>
    exact h

/-- On 64-bit Windows: the four bytes of padding are where the compiler puts them. -/
example : overlapped (W true) (returned 0x1f4) = .ok (zeros 24 ++ [0xf4, 1, 0, 0, 0, 0, 0, 0] ++ [0]) := by rfl
example : overlapped (W false) (returned 0x80000004) = .ok (zeros 16 ++ [4, 0, 0, 0x80] ++ [0]) := by rfl

end Verif.Platform.Win32
