import Verif.Names
import Verif.Spec.Names
import Verif.Props.Messages
import Verif.Props.Inquiry
import Verif.Props.StandardInquiry
import Verif.Props.Ses
/-!
# C90 — the names of numbers
-/

namespace Verif.Names

open Verif.Parse Verif.Messages
open Verif.Spec.Names (Distinct DesignatorNames)

/-- What a lookup gives: the name, or a KeyError. -/
def named : Option String → Py String
  | some s => .ok s
  | none => .error .keyError

/-! ## Tables -/

theorem lookup_mem {α : Type} (d : List (Int × α)) (k : Int) (v : α) (h : d.lookup k = some v) : (k, v) ∈ d := by
  induction d with
  | nil => cases h
  | cons e d ih =>
    obtain ⟨k', v'⟩ := e
    rw [List.lookup_cons] at h
    by_cases hk : k = k'
    · subst hk; simp at h; simp [h]
    · rw [show (k == k') = false by simpa using hk] at h
      exact List.mem_cons_of_mem _ (ih h)

theorem lookup_none {α : Type} (d : List (Int × α)) (k : Int) (h : ∀ e ∈ d, e.1 ≠ k) : d.lookup k = none := by
  cases hl : d.lookup k with
  | none => rfl
  | some v => exact absurd rfl (h _ (lookup_mem d k v hl))

/-- A table of which every entry and every number below `bound` is checked, and that has no other entries. -/
theorem index_table (d : List (Int × String)) (f : Nat → Option String) (bound : Nat)
    (h : ∀ n, n < bound → d.reverse.lookup (n : Int) = f n) (hd : ∀ e ∈ d, e.1 < (bound : Int)) (hf : ∀ n, bound ≤ n → f n = none) (n : Nat) :
    index d n = named (f n) := by
  have : d.reverse.lookup (n : Int) = f n := by
    by_cases hb : n < bound
    · exact h n hb
    · rw [hf n (by omega)]
      exact lookup_none _ _ (fun e he => by have := hd e (List.mem_reverse.1 he); omega)
  unfold index
  rw [this]
  cases f n <;> rfl

theorem deviceType_names (n : Nat) : index deviceTypes n = named (Spec.Names.deviceType n) :=
  index_table _ _ 32 (by decide +kernel) (by decide +kernel) (by intro n h; unfold Spec.Names.deviceType; split <;> first | omega | rfl) n

theorem version_names (n : Nat) : index versions n = named (Spec.Names.version n) :=
  index_table _ _ 8 (by decide +kernel) (by decide +kernel) (by intro n h; unfold Spec.Names.version; split <;> first | omega | rfl) n

theorem codeSet_names (n : Nat) : index codeSets n = named (Spec.Names.codeSet n) :=
  index_table _ _ 4 (by decide +kernel) (by decide +kernel) (by intro n h; unfold Spec.Names.codeSet; split <;> first | omega | rfl) n

theorem association_names (n : Nat) : index associations n = named (Spec.Names.association n) :=
  index_table _ _ 4 (by decide +kernel) (by decide +kernel) (by intro n h; unfold Spec.Names.association; split <;> first | omega | rfl) n

theorem elementType_names (n : Nat) : index elementTypeCodes n = named (Spec.Names.elementType n) :=
  index_table _ _ 256 (by decide +kernel) (by decide +kernel) (by intro n h; unfold Spec.Names.elementType; split <;> first | omega | rfl) n

theorem fanSpeed_names (n : Nat) : index fanSpeeds n = named (Spec.Names.fanSpeed n) :=
  index_table _ _ 8 (by decide +kernel) (by decide +kernel) (by intro n h; unfold Spec.Names.fanSpeed; split <;> first | omega | rfl) n

theorem status_names (n : Nat) : index statusCodes n = named (Spec.Names.status n) :=
  index_table _ _ 16 (by decide +kernel) (by decide +kernel) (by intro n h; unfold Spec.Names.status; split <;> first | omega | rfl) n

theorem designatorType_names (n : Nat) : designatorTypes.reverse.lookup (n : Int) = Spec.Names.designatorType n := by
  have h := index_table designatorTypes Spec.Names.designatorType 11 (by decide +kernel) (by decide +kernel)
    (by intro n h; unfold Spec.Names.designatorType; split <;> first | omega | rfl) n
  unfold index named at h
  cases h1 : designatorTypes.reverse.lookup (n : Int) <;> cases h2 : Spec.Names.designatorType n <;> simp_all

/-! ## Distinct names -/

theorem distinct_of {f : Nat → Option String} (d : List (Int × String)) (hf : ∀ n : Nat, index d n = named (f n))
    (h : ∀ e ∈ d, ∀ e' ∈ d, e.2 = e'.2 → e.1 = e'.1) : Distinct f := by
  intro m n s hm hn
  have hmem : ∀ k, f k = some s → ((k : Int), s) ∈ d := by
    intro k hk
    have := hf k
    rw [hk] at this
    unfold index named at this
    cases hl : d.reverse.lookup (k : Int) with
    | none => rw [hl] at this; cases this
    | some v => rw [hl] at this; cases this; exact List.mem_reverse.1 (lookup_mem _ _ _ hl)
  have := h _ (hmem m hm) _ (hmem n hn) rfl
  simp only at this; omega

/-- In every table, different values have different names. -/
theorem C90_distinct : Distinct Spec.Names.deviceType ∧ Distinct Spec.Names.version ∧ Distinct Spec.Names.codeSet ∧ Distinct Spec.Names.association ∧
    Distinct Spec.Names.elementType ∧ Distinct Spec.Names.fanSpeed ∧ Distinct Spec.Names.status :=
  ⟨distinct_of _ deviceType_names (by decide +kernel), distinct_of _ version_names (by decide +kernel), distinct_of _ codeSet_names (by decide +kernel),
   distinct_of _ association_names (by decide +kernel), distinct_of _ elementType_names (by decide +kernel), distinct_of _ fanSpeed_names (by decide +kernel),
   distinct_of _ status_names (by decide +kernel)⟩

theorem pageName_lookup (page type : Nat) : pageName page type = named (Spec.Names.page page type) := by
  have hby : ∀ d, index pageNames page = .ok (.byType d) → pageName page type = index d type := by
    intro d h; unfold pageName; rw [h]; rfl
  unfold Spec.Names.page
  by_cases h0 : page = 0xb0
  · subst h0
    rw [hby _ rfl]
    exact index_table _ Spec.Names.pageB0 18 (by decide +kernel) (by decide +kernel) (by intro n h; unfold Spec.Names.pageB0; split <;> first | omega | rfl) type
  by_cases h1 : page = 0xb1
  · subst h1
    rw [hby _ rfl]
    exact index_table _ Spec.Names.pageB1 18 (by decide +kernel) (by decide +kernel) (by intro n h; unfold Spec.Names.pageB1; split <;> first | omega | rfl) type
  by_cases h2 : page = 0xb2
  · subst h2
    rw [hby _ rfl]
    exact index_table _ Spec.Names.pageB2 18 (by decide +kernel) (by decide +kernel) (by intro n h; unfold Spec.Names.pageB2; split <;> first | omega | rfl) type
  by_cases h3 : page = 0xb3
  · subst h3
    rw [hby _ rfl]
    exact index_table _ Spec.Names.pageB3 18 (by decide +kernel) (by decide +kernel) (by intro n h; unfold Spec.Names.pageB3; split <;> first | omega | rfl) type
  rw [if_neg h0, if_neg h1, if_neg h2, if_neg h3]
  have hi : index pageNames page = match Spec.Names.commonPage page with | some s => .ok (.name s) | none => .error .keyError := by
    by_cases hp : page < 256
    · have : ∀ p : Nat, p < 256 → (p ≠ 0xb0 ∧ p ≠ 0xb1 ∧ p ≠ 0xb2 ∧ p ≠ 0xb3) →
          pageNames.reverse.lookup (p : Int) = (Spec.Names.commonPage p).map .name := by decide +kernel
      unfold index
      rw [this page hp ⟨h0, h1, h2, h3⟩]
      cases Spec.Names.commonPage page <;> rfl
    · have e1 : Spec.Names.commonPage page = none := by unfold Spec.Names.commonPage; split <;> first | omega | rfl
      have hd : ∀ e ∈ pageNames, e.1 < (256 : Int) := by decide +kernel
      unfold index
      rw [e1, lookup_none _ _ (fun e he => by have := hd e (List.mem_reverse.1 he); omega)]
  unfold pageName
  rw [hi]
  cases Spec.Names.commonPage page <;> rfl

/-! ## The numbers that decoded objects hold -/

theorem page_type (L : BufLib) (fs : List UField) (cs : List (String × List Ref)) (b : Bytes) (p : Page) (h : fixedPage L fs cs b = .ok p) :
    get p.peripheral "type" = (Spec.bitsAt b 0 4 0 : Nat) := by
  unfold fixedPage at h
  obtain ⟨a, h1, h⟩ := bind_ok h
  obtain ⟨a2, h2, h⟩ := bind_ok h
  obtain ⟨a3, h3, h⟩ := bind_ok h
  cases h
  by_cases hl : 1 ≤ b.length
  · rw [unpackFields_eq L.sg peripheralFields b (by simp [peripheralFields, UField.ref, Ref.Ok])
      (by simpa [peripheralFields, fieldsEnd, UField.ref, Ref.stop] using hl)] at h1
    cases h1; rfl
  · rw [unpackFields_truncated L.sg peripheralFields b (by simp [peripheralFields, UField.ref, Ref.Ok])
      (by simp [peripheralFields, fieldsEnd, UField.ref, Ref.stop]; exact List.length_eq_zero_iff.1 (by omega))] at h1
    cases h1

theorem deviceType_all (n : Nat) (h : n < 32) : ∃ s, Spec.Names.deviceType n = some s := by
  have : ∀ n, n < 32 → (Spec.Names.deviceType n).isSome = true := by decide +kernel
  exact Option.isSome_iff_exists.1 (this n h)

theorem bits_lt (b : Bytes) (i hi lo : Nat) : Spec.bitsAt b i hi lo < 2 ^ (hi + 1 - lo) := Nat.mod_lt _ (Nat.two_pow_pos _)

/-- Every page with a device type in its first byte: whatever the device sends, the type the library reads has a name, the one of the five bits. -/
theorem C90_device (L : BufLib) (fs : List UField) (cs : List (String × List Ref)) (b : Bytes) (p : Page) (h : fixedPage L fs cs b = .ok p) :
    ∃ s, Spec.Names.deviceType (Spec.bitsAt b 0 4 0) = some s ∧ index deviceTypes (get p.peripheral "type") = .ok s := by
  obtain ⟨s, hs⟩ := deviceType_all _ (bits_lt b 0 4 0)
  exact ⟨s, hs, by rw [page_type L fs cs b p h, deviceType_names, hs]; rfl⟩

theorem standard_page (L : BufLib) (b : Bytes) (x : StandardInquiry) (h : standardInquiry L b = .ok x) : fixedPage L standardFields [] b = .ok x.page := by
  unfold standardInquiry at h
  obtain ⟨p, h1, h⟩ := bind_ok h
  obtain ⟨v, _, h⟩ := bind_ok h
  obtain ⟨pr, _, h⟩ := bind_ok h
  obtain ⟨r, _, h⟩ := bind_ok h
  rw [h1]
  dsimp only at h
  split at h
  · obtain ⟨e, _, h⟩ := bind_ok h
    cases h; rfl
  · cases h; rfl

/-- The version of standard INQUIRY data: versions up to SPC-5 have a name, a later one has none and the lookup raises KeyError. Missing for
all: names for the versions from 08h on. -/
theorem C90_version_partial (L : BufLib) (b : Bytes) (x : StandardInquiry) (h : standardInquiry L b = .ok x) :
    index versions (get x.page.attrs "version") = named (Spec.Names.version (Spec.byteAt b 2)) ∧
    ((Spec.Names.version (Spec.byteAt b 2)).isSome = true ↔ Spec.byteAt b 2 < 8) := by
  have hp := standard_page L b x h
  have hl : 8 ≤ b.length := by
    refine Nat.le_of_not_lt (fun hlt => ?_)
    rw [C45_short L b hlt] at h; cases h
  rw [fixedPage_eq L _ _ b (by simp [standardFields, UField.ref, Ref.Ok]) (by simp) (by omega)
    (by simpa [standardFields, fieldsEnd, UField.ref, Ref.stop] using hl) (by simp [catsEnd])] at hp
  have hx := Except.ok.inj hp
  have hv : get x.page.attrs "version" = (Spec.byteAt b 2 : Nat) := by
    rw [← hx]
    show get [_, _, _, _, _, _, _, _, _, _, _, _, _, _, _, _, _, _] "version" = _
    simp [Parse.get, List.lookup, UField.name, fieldVal, refNum, num_one]
  rw [hv, version_names]
  refine ⟨rfl, ?_⟩
  unfold Spec.Names.version
  split <;> simp_all <;> omega

/-- Not all versions: a device that says 08h (SPC-6). -/
theorem C90_version_false (L : BufLib) : ∃ b x, standardInquiry L b = .ok x ∧ index versions (get x.page.attrs "version") = .error .keyError := by
  let b : Bytes := [0, 0, 8, 2, 31, 0, 0, 0] ++ List.replicate 28 0x41
  refine ⟨b, _, C45_unpack L b (by decide) (by decide), ?_⟩
  have := (C90_version_partial L b _ (C45_unpack L b (by decide) (by decide))).1
  rw [this]; decide

/-- The list of supported pages: for the pages it lists and the type of the device, the name of the page of the command set of that type.
Missing for all: names for the other page codes and for the pages B0h to B3h of other types. -/
theorem C90_pages_partial (L : BufLib) (b : Bytes) (h : 4 ≤ b.length) (hl : 4 + Spec.byteAt b 3 ≤ b.length) :
    ∃ p codes, supportedPages L b = .ok (p, codes) ∧ codes.map (fun c : Nat => pageName c (get p.peripheral "type")) =
      (List.range (Spec.byteAt b 3)).map fun j => named (Spec.Names.page (Spec.byteAt b (4 + j)) (Spec.bitsAt b 0 4 0)) := by
  refine ⟨_, _, C44_supported L b h hl, ?_⟩
  rw [List.map_map]
  apply List.map_congr_left
  intro j _
  exact pageName_lookup _ _

/-- Not all: a tape drive lists page B1h (the serial number its manufacturer assigned), and the name is looked for in a dictionary that knows
the page for disks, object stores and enclosures only; a vendor page without a name is no better. -/
theorem C90_pages_false (L : BufLib) :
    ∃ b p codes, supportedPages L b = .ok (p, codes) ∧ get p.peripheral "type" = 1 ∧ codes = [0x00, 0xb1, 0xd0] ∧
      codes.map (fun c : Nat => pageName c (get p.peripheral "type")) = [.ok "Supported VPD pages", .error .keyError, .error .keyError] := by
  let b : Bytes := [1, 0, 0, 3, 0x00, 0xb1, 0xd0]
  obtain ⟨p, codes, h1, h2⟩ := C90_pages_partial L b (by decide) (by decide)
  refine ⟨b, p, codes, h1, ?_, ?_, h2.trans (by decide)⟩
  · rw [C44_supported L b (by decide) (by decide)] at h1
    cases h1; decide
  · rw [C44_supported L b (by decide) (by decide)] at h1
    cases h1; decide

/-! ## Designator types -/

/-- The name of a designator type, if the dictionary is as the module makes it. -/
def typeName (k : Int) : String := ((designatorTypes.reverse.lookup k).getD (reserved k))

theorem reserved_text (n : Nat) : (reserved (n : Int)).toList = "Reserved [0x".toList ++ digits 16 n ++ [']'] := by
  have e : "Reserved [0x".toList = "Reserved [".toList ++ ['0', 'x'] := by decide
  unfold reserved hex
  rw [String.toList_ofList, if_neg (by omega), e, Int.natAbs_natCast]
  simp only [List.nil_append, List.append_assoc]

theorem typeName_known (n : Nat) (s : String) (h : Spec.Names.designatorType n = some s) : typeName n = s := by
  unfold typeName
  rw [designatorType_names, h]; rfl

theorem typeName_reserved (n : Nat) (h : Spec.Names.designatorType n = none) : typeName n = reserved n := by
  unfold typeName
  rw [designatorType_names, h]; rfl

theorem typeName_names : DesignatorNames fun n => typeName n :=
  ⟨typeName_known, fun n h => ⟨digits 16 n, (digits_ok 16 (by decide) (by decide) n).1, (digits_ok 16 (by decide) (by decide) n).2, by
    simp only [typeName_reserved n h, reserved_text]⟩⟩

/-- Any way to name designator types as described gives different numbers different names. -/
theorem C90_designators_distinct (name : Nat → String) (h : DesignatorNames name) (m n : Nat) (e : name m = name n) : m = n := by
  have hk : ∀ k s, Spec.Names.designatorType k = some s → s.toList.take 3 ≠ ['R', 'e', 's'] ∧ k < 11 := by
    intro k s hs
    by_cases hb : k < 11
    · have : ∀ k, k < 11 → ∀ s ∈ Spec.Names.designatorType k, s.toList.take 3 ≠ ['R', 'e', 's'] := by decide +kernel
      exact ⟨this k hb s hs, hb⟩
    · exfalso
      unfold Spec.Names.designatorType at hs
      split at hs <;> first | omega | cases hs
  have hr : ∀ k, Spec.Names.designatorType k = none → (name k).toList.take 3 = ['R', 'e', 's'] := by
    intro k hn
    obtain ⟨ds, _, _, hd⟩ := h.2 k hn
    rw [hd]; rfl
  cases hm : Spec.Names.designatorType m with
  | some s =>
    cases hn : Spec.Names.designatorType n with
    | some t =>
      have h1 := h.1 m s hm
      have h2 := h.1 n t hn
      have e' : s = t := by rw [← h1, ← h2, e]
      have : ∀ m, m < 11 → ∀ n, n < 11 → Spec.Names.designatorType m = Spec.Names.designatorType n → m = n := by decide +kernel
      exact this m (hk m s hm).2 n (hk n t hn).2 (by rw [hm, hn, e'])
    | none =>
      exfalso
      have h1 := h.1 m s hm
      have := hr n hn
      rw [← e, h1] at this
      exact (hk m s hm).1 this
  | none =>
    cases hn : Spec.Names.designatorType n with
    | some t =>
      exfalso
      have h1 := h.1 n t hn
      have := hr m hm
      rw [e, h1] at this
      exact (hk n t hn).1 this
    | none =>
      obtain ⟨d1, _, h1, e1⟩ := h.2 m hm
      obtain ⟨d2, _, h2, e2⟩ := h.2 n hn
      rw [e, e2, List.append_assoc, List.append_assoc] at e1
      have := List.append_cancel_left e1
      have := (List.append_inj' this rfl).1
      rw [← h1, ← h2, this]

/-- The dictionary holds nothing but names of their numbers, all of the eleven and all that somebody asked for. -/
structure Good (d : List (Int × String)) (seen : List Nat) : Prop where
  hit : ∀ n : Nat, (Spec.Names.designatorType n).isSome = true ∨ n ∈ seen → d.reverse.lookup (n : Int) = some (typeName n)
  miss : ∀ n : Nat, ¬ ((Spec.Names.designatorType n).isSome = true ∨ n ∈ seen) → d.reverse.lookup (n : Int) = none

theorem good_init : Good designatorTypes [] := by
  constructor
  · intro n h
    simp only [List.not_mem_nil, or_false] at h
    obtain ⟨s, hs⟩ := Option.isSome_iff_exists.1 h
    unfold typeName
    rw [designatorType_names, hs]; rfl
  · intro n h
    rw [designatorType_names]
    simpa using h

theorem good_item {d : List (Int × String)} {seen : List Nat} (g : Good d seen) (n : Nat) :
    (getItem reserved d n).1 = typeName n ∧ Good (getItem reserved d n).2 (n :: seen) := by
  unfold getItem
  by_cases hn : (Spec.Names.designatorType n).isSome = true ∨ n ∈ seen
  · rw [g.hit n hn]
    refine ⟨rfl, fun m h => ?_, fun m h => ?_⟩
    · rcases h with h | h
      · exact g.hit m (.inl h)
      · rcases List.mem_cons.1 h with h | h
        · subst h; exact g.hit m hn
        · exact g.hit m (.inr h)
    · exact g.miss m (fun h' => h (h'.imp_right (List.mem_cons_of_mem _)))
  · rw [g.miss n hn]
    have hd : Spec.Names.designatorType n = none := by
      cases h : Spec.Names.designatorType n with
      | none => rfl
      | some s => exact absurd (.inl (by rw [h]; rfl)) hn
    have ht : typeName n = reserved n := by unfold typeName; rw [designatorType_names, hd]; rfl
    simp only [missing, setItem]
    refine ⟨ht.symm, fun m h => ?_, fun m h => ?_⟩ <;> rw [List.reverse_append] <;> show List.lookup _ ((_, _) :: _) = _ <;> rw [List.lookup_cons]
    · by_cases hm : m = n
      · subst hm; simp [ht]
      · rw [show ((m : Int) == (n : Int)) = false by simp only [beq_eq_false_iff_ne, ne_eq]; omega]
        exact g.hit m (h.imp_right fun h => (List.mem_cons.1 h).resolve_left hm)
    · have hm : m ≠ n := fun e => h (.inr (by simp [e]))
      rw [show ((m : Int) == (n : Int)) = false by simp only [beq_eq_false_iff_ne, ne_eq]; omega]
      exact g.miss m (fun h' => h (h'.imp_right (List.mem_cons_of_mem _)))

def ask : Spec.Names.Ask → Lookup
  | .item n => .item n
  | .get n => .get n

theorem lookups_good (as : List Spec.Names.Ask) {d : List (Int × String)} {seen : List Nat} (g : Good d seen) :
    (lookups d (as.map ask)).1 = Spec.Names.answers (fun n => typeName n) seen as := by
  induction as generalizing d seen with
  | nil => rfl
  | cons a as ih =>
    cases a with
    | item n =>
      obtain ⟨h1, h2⟩ := good_item g n
      show some (getItem reserved d n).1 :: (lookups (getItem reserved d n).2 (as.map ask)).1 = _
      rw [h1, ih h2]; rfl
    | get n =>
      show get? d n :: (lookups d (as.map ask)).1 = _
      rw [ih g, Spec.Names.answers]
      unfold get?
      split
      · rename_i h; rw [g.hit n h]
      · rename_i h; rw [g.miss n h]

/-- All programs that look up designator types, in any order and any number: what each lookup answers. -/
theorem C90_lookups (as : List Spec.Names.Ask) :
    ∃ name, DesignatorNames name ∧ (lookups designatorTypes (as.map ask)).1 = Spec.Names.answers name [] as :=
  ⟨_, typeName_names, lookups_good as good_init⟩

theorem lookups_append (as bs : List Lookup) (d : List (Int × String)) :
    (lookups d (as ++ bs)).1 = (lookups d as).1 ++ (lookups (lookups d as).2 bs).1 := by
  induction as generalizing d with
  | nil => rfl
  | cons a as ih =>
    cases a with
    | item k => simp only [List.cons_append, lookups, ih]
    | get k => simp only [List.cons_append, lookups, ih]

theorem lookups_length (as : List Lookup) (d : List (Int × String)) : (lookups d as).1.length = as.length := by
  induction as generalizing d with
  | nil => rfl
  | cons a as ih => cases a <;> simp [lookups, ih]

/-- The dictionary a program leaves behind answers what comes later as if it had been asked in the same program. -/
theorem C90_later (as bs : List Spec.Names.Ask) :
    ∃ name, DesignatorNames name ∧
      (lookups (lookups designatorTypes (as.map ask)).2 (bs.map ask)).1 = (Spec.Names.answers name [] (as ++ bs)).drop as.length := by
  refine ⟨_, typeName_names, ?_⟩
  rw [← lookups_good (as ++ bs) good_init, List.map_append, lookups_append,
    List.drop_left' (by rw [lookups_length, List.length_map])]

theorem answers_items (name : Nat → String) (as : List Spec.Names.Ask) (seen : List Nat) (h : ∀ a ∈ as, ∃ n, a = .item n) :
    Spec.Names.answers name seen as = as.map (Spec.Names.answer name) := by
  induction as generalizing seen with
  | nil => rfl
  | cons a as ih =>
    obtain ⟨n, rfl⟩ := h a (by simp)
    rw [Spec.Names.answers, ih _ (fun a ha => h a (List.mem_cons_of_mem _ ha))]
    rfl

/-- Lookups by index: the same number has the same name whenever it is looked up. Missing for all: `get`, see below. -/
theorem C90_lookups_partial : ∃ name, DesignatorNames name ∧ ∀ as : List Spec.Names.Ask, (∀ a ∈ as, ∃ n, a = .item n) →
    (lookups designatorTypes (as.map ask)).1 = as.map (Spec.Names.answer name) :=
  ⟨_, typeName_names, fun as h => by rw [lookups_good as good_init, answers_items _ as [] h]⟩

/-- `get` (and likewise `in`, `len` and iteration) depends on who looked up what before: a reserved type is not there, and is after
somebody has asked for its name. -/
theorem C90_lookups_false : (lookups designatorTypes [.get 11]).1 = [none] ∧
    (lookups designatorTypes [.item 11, .get 11]).1 = [some "Reserved [0xb]", some "Reserved [0xb]"] := by decide +kernel

/-! ## Designators -/

/-- A device identification page: every designator's type has a name (whatever was looked up before), every association has the
standard's; a code set has one if the standard gives it one. Missing for all: names for the code sets 0h and 4h to Fh. -/
theorem C90_designators_partial (L : BufLib) (first : UInt8) (ds : List Bytes) (rest : Bytes) (hd : ∀ d ∈ ds, Spec.IsDesignator d ∧ Spec.TextOk d)
    (ho : L.lowFirst = true ∨ ∀ d ∈ ds, Spec.designatorType d ≠ 3) (hn : ds.flatten.length < 2 ^ 16) (before : List Spec.Names.Ask) :
    ∃ name p xs, DesignatorNames name ∧ deviceIdentification L (Spec.deviceIdentification first ds ++ rest) = .ok (p, xs) ∧
      (lookups designatorTypes (before.map ask ++ xs.map fun x => .item (get x.attrs "designator_type"))).1.drop before.length =
        ds.map (fun d => some (name (Spec.designatorType d))) ∧
      xs.map (fun x => (index associations (get x.attrs "association")).toOption) = ds.map (fun d => Spec.Names.association (Spec.bitsAt d 1 5 4)) ∧
      (∀ d ∈ ds, (Spec.Names.association (Spec.bitsAt d 1 5 4)).isSome = true) ∧
      xs.map (fun x => index codeSets (get x.attrs "code_set")) = ds.map (fun d => named (Spec.Names.codeSet (Spec.bitsAt d 0 3 0))) := by
  refine ⟨_, _, _, typeName_names, C43_decodes L first ds rest hd ho hn, ?_, ?_, ?_, ?_⟩
  · have e : before.map ask ++ ((ds.map fun d => (⟨Spec.designatorClass d, Spec.designatorHeader d ++ Spec.designatorNumbers d, Spec.designatorData L.trim d⟩ : Designator)).map
        fun x => Lookup.item (Parse.get x.attrs "designator_type")) = (before ++ ds.map fun d => Spec.Names.Ask.item (Spec.designatorType d)).map ask := by
      rw [List.map_append, List.map_map, List.map_map]; rfl
    rw [e, lookups_good _ good_init]
    have key : ∀ (before : List Spec.Names.Ask) (seen : List Nat),
        (Spec.Names.answers (fun n => typeName n) seen (before ++ ds.map fun d => Spec.Names.Ask.item (Spec.designatorType d))).drop before.length =
          ds.map fun d => some (typeName (Spec.designatorType d : Nat)) := by
      intro before
      induction before with
      | nil =>
        intro seen
        rw [List.nil_append, answers_items _ _ _ (by simp), List.map_map]; rfl
      | cons a as ih =>
        intro seen
        cases a <;> exact ih _
    exact key before []
  · rw [List.map_map]
    apply List.map_congr_left
    intro d _
    show (index associations ((Spec.bitsAt d 1 5 4 : Nat) : Int)).toOption = _
    rw [association_names]
    cases Spec.Names.association (Spec.bitsAt d 1 5 4) <;> rfl
  · intro d _
    have : ∀ n, n < 4 → (Spec.Names.association n).isSome = true := by decide +kernel
    exact this _ (bits_lt d 1 5 4)
  · rw [List.map_map]
    apply List.map_congr_left
    intro d _
    exact codeSet_names _

/-- Not all: a designator of the reserved code set 4h is decoded, and the name of its code set is not found. -/
theorem C90_code_set_false (L : BufLib) : ∃ b p x, deviceIdentification L b = .ok (p, [x]) ∧ index codeSets (get x.attrs "code_set") = .error .keyError := by
  let d : Bytes := [4, 0, 0, 1, 0x41]
  have hd : ∀ e ∈ [d], Spec.IsDesignator e ∧ Spec.TextOk e := by decide
  have h := C43_decodes L 0 [d] [] hd (.inr (by decide)) (by decide)
  refine ⟨_, _, _, h, ?_⟩
  show index codeSets ((Spec.bitsAt d 0 3 0 : Nat) : Int) = _
  decide

/-! ## Enclosures -/

open Verif.Parse.Ses

/-- A configuration page and the status page that goes with it: types and status codes have the standard's names where there are any, and
the speed of every fan has one. Missing for all: names for the other element types and for the status codes 9h to Fh. -/
theorem C90_elements_partial (L : BufLib) (g : Nat) (es : List Bytes) (ss : List Spec.Ses.TypeStatus) (flags : UInt8) (generation : Nat) (rest rest' : Bytes)
    (hc : Spec.Ses.IsConfiguration g es (ss.map (·.type))) (hs : L.sg = true → Spec.Ses.Small es (ss.map (·.type))) (hok : ∀ s ∈ ss, s.Ok)
    (hg : generation < 2 ^ 32) (hp : (Spec.Ses.enclosureStatus flags generation ss).length < 4 + 2 ^ 16) :
    ∃ conf x, configuration L (Spec.Ses.configuration g es (ss.map (·.type)) ++ rest) = .ok conf ∧
      enclosureStatus L conf (Spec.Ses.enclosureStatus flags generation ss ++ rest') = .ok x ∧
      conf.headers.map (fun h => index elementTypeCodes (get h "element_type")) = ss.map (fun s => named (Spec.Names.elementType s.type.code.toNat)) ∧
      x.descriptors.map (fun d => (d.overall :: d.individual).map fun e => index statusCodes (get e.attrs "element_status_code")) =
        ss.map (fun s => (s.overall :: s.elements).map fun e => named (Spec.Names.status (Spec.bitsAt e 0 3 0))) ∧
      ∀ (i : Nat) (s : Spec.Ses.TypeStatus), ss[i]? = some s → s.type.code.toNat = 3 →
        ∃ d, x.descriptors[i]? = some d ∧ d.individual.map (fun e => (index fanSpeeds (get e.info "speed_code")).toOption) =
            s.elements.map (fun e => Spec.Names.fanSpeed (Spec.bitsAt e 3 2 0)) ∧
          ∀ e ∈ s.elements, (Spec.Names.fanSpeed (Spec.bitsAt e 3 2 0)).isSome = true := by
  obtain ⟨conf, h1, h2⟩ := C46_status L g es ss flags generation rest rest' hc hs hok hg hp
  refine ⟨conf, _, h1, h2, ?_, ?_, ?_⟩
  · rw [C46_configuration L g es _ rest hc hs] at h1
    cases h1
    simp only [List.map_map]
    apply List.map_congr_left
    intro s _
    exact elementType_names _
  · simp only [List.map_map]
    apply List.map_congr_left
    intro s _
    simp only [Function.comp, List.map_cons, List.map_map]
    refine congr (congrArg _ (status_names _)) (List.map_congr_left fun e _ => status_names _)
  · intro i s hi hcode
    refine ⟨_, by rw [List.getElem?_map, hi]; rfl, ?_, ?_⟩
    · dsimp only
      rw [hcode, List.map_map]
      apply List.map_congr_left
      intro e _
      show (index fanSpeeds ((Spec.bitsAt e 3 2 0 : Nat) : Int)).toOption = _
      rw [fanSpeed_names]
      cases Spec.Names.fanSpeed (Spec.bitsAt e 3 2 0) <;> rfl
    · intro e _
      have : ∀ n, n < 8 → (Spec.Names.fanSpeed n).isSome = true := by decide +kernel
      exact this _ (bits_lt e 3 2 0)

/-- The conditions are met, by two enclosures with a fan. -/
example (L : BufLib) : ∃ conf x, configuration L (Spec.Ses.configuration 7 [exampleEnclosure 2, exampleEnclosure 1] exampleTypes) = .ok conf ∧
    enclosureStatus L conf (Spec.Ses.enclosureStatus 4 7 exampleStatus) = .ok x ∧
    conf.headers.map (fun h => index elementTypeCodes (get h "element_type")) = [.ok "Array Device Slot", .ok "Enclosure", .ok "Cooling"] := by
  have ho : ∀ s ∈ exampleStatus, s.Ok := by
    intro s hs
    simp only [exampleStatus, List.mem_cons, List.not_mem_nil, or_false] at hs
    rcases hs with rfl | rfl | rfl <;> exact ⟨by decide, by decide, by decide⟩
  obtain ⟨conf, x, h1, h2, h3, _⟩ := C90_elements_partial L 7 [exampleEnclosure 2, exampleEnclosure 1] exampleStatus 4 7 [] [] example_configuration.1
    (fun _ => example_configuration.2) ho (by decide) (by decide)
  rw [List.append_nil] at h1 h2
  exact ⟨conf, x, h1, h2, h3.trans (by decide)⟩

/-- Not all: an element of type 1Ah and one with the reserved status 9h are decoded, and neither has a name. -/
theorem C90_elements_false (L : BufLib) :
    (∃ x, statusElement L (statusClass 0x1A) [9, 0, 0, 0] = .ok (x, 4) ∧ index statusCodes (get x.attrs "element_status_code") = .error .keyError) ∧
    index elementTypeCodes 0x1A = .error .keyError :=
  ⟨⟨_, statusElement_eq L 0x1A [9, 0, 0, 0] [] rfl, by
    show index statusCodes ((Spec.bitsAt [9, 0, 0, 0] 0 3 0 : Nat) : Int) = _
    decide⟩, by decide⟩

end Verif.Names
