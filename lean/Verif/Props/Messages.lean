import Verif.Messages
import Verif.Spec.Messages
/-!
# C89: the text of the exception for a failed command tells what the operating system reported
-/
set_option linter.unusedSimpArgs false

namespace Verif.Messages
open Verif.Platform Verif.Executer Verif.Spec.Messages

/-! ## Numbers -/

theorem digit_value {n : Nat} (h : n < 16) : digitValue (digit n) = some n := by
  have : ∀ n : Fin 16, digitValue (digit n.1) = some n.1 := by decide
  exact this ⟨n, h⟩

theorem digits_lt (base n : Nat) (h : n < base) : digits base n = [digit n] := by
  rw [digits, dif_neg (by omega)]

theorem digits_ge (base n : Nat) (hb : 2 ≤ base) (h : base ≤ n) : digits base n = digits base (n / base) ++ [digit (n % base)] := by
  rw [digits, dif_pos ⟨hb, h⟩]

theorem digits_ok (base : Nat) (hb : 2 ≤ base) (hb' : base ≤ 16) (n : Nat) :
    (∀ c ∈ digits base n, isDigit base c = true) ∧ number base (digits base n) = n := by
  induction n using Nat.strongRecOn with
  | _ n ih =>
    by_cases h : n < base
    · rw [digits_lt base n h]
      simp [isDigit, digit_value (show n < 16 by omega), number, h]
    · rw [digits_ge base n hb (by omega)]
      have hm : n % base < base := Nat.mod_lt _ (by omega)
      obtain ⟨h1, h2⟩ := ih (n / base) (Nat.div_lt_self (by omega) (by omega))
      constructor
      · intro c hc
        rcases List.mem_append.1 hc with hc | hc
        · exact h1 c hc
        · rw [List.mem_singleton.1 hc]
          simp [isDigit, digit_value (show n % base < 16 by omega), hm]
      · unfold number at h2 ⊢
        rw [List.foldl_append, h2]
        simp only [List.foldl_cons, List.foldl_nil, digit_value (show n % base < 16 by omega), Option.getD_some]
        rw [Nat.mul_comm]; exact Nat.div_add_mod n base

theorem hex2_ok (n : Nat) : (∀ c ∈ hex2 n, isDigit 16 c = true) ∧ number 16 (hex2 n) = n := by
  obtain ⟨h1, h2⟩ := digits_ok 16 (by decide) (by decide) n
  unfold hex2
  simp only
  split
  · constructor
    · intro c hc
      rcases List.mem_cons.1 hc with rfl | hc
      · decide
      · exact h1 c hc
    · exact h2
  · exact ⟨h1, h2⟩

theorem takeWhile_stop {α : Type} (p : α → Bool) (a : List α) (c : α) (b : List α) (h : ∀ x ∈ a, p x = true) (hc : p c = false) :
    (a ++ c :: b).takeWhile p = a := by
  induction a with
  | nil => simp [hc]
  | cons x a ih => simp [h x (by simp), ih (fun y hy => h y (by simp [hy]))]

theorem takeWhile_end {α : Type} (p : α → Bool) (a : List α) (h : ∀ x ∈ a, p x = true) : a.takeWhile p = a := by
  induction a with
  | nil => rfl
  | cons x a ih => simp [h x (by simp), ih (fun y hy => h y (by simp [hy]))]

theorem dropWhile_stop {α : Type} (p : α → Bool) (a : List α) (c : α) (b : List α) (h : ∀ x ∈ a, p x = true) (hc : p c = false) :
    (a ++ c :: b).dropWhile p = c :: b := by
  induction a with
  | nil => simp [hc]
  | cons x a ih => simp [h x (by simp), ih (fun y hy => h y (by simp [hy]))]

/-- Text that a number may be followed by. -/
def Stops (rest : List Char) : Prop := rest = [] ∨ ∃ c r, rest = c :: r ∧ isDigit 16 c = false

theorem number_stops (n : Nat) (rest : List Char) (h : Stops rest) : number 16 ((hex2 n ++ rest).takeWhile (isDigit 16)) = n := by
  obtain ⟨h1, h2⟩ := hex2_ok n
  rcases h with rfl | ⟨c, r, rfl, hc⟩
  · rw [List.append_nil, takeWhile_end _ _ h1, h2]
  · rw [takeWhile_stop _ _ _ _ h1 hc, h2]

/-! ## Names -/

/-- A name without the characters that mark numbers and labels. -/
def Plain (s : String) : Prop := ∀ c ∈ s.toList, c ≠ 'x' ∧ c ≠ ' ' ∧ c ≠ ':' ∧ c ≠ '='

instance (s : String) : Decidable (Plain s) := inferInstanceAs (Decidable (∀ c ∈ s.toList, _))

/-- The name that `prettify` puts in front of the code. -/
def nameOf (table : List (String × Nat)) (code : Nat) : String := (((table.filter fun e => e.2 == code).map Prod.fst).head?).getD ""

theorem nameOf_plain (table : List (String × Nat)) (h : ∀ e ∈ table, Plain e.1) (code : Nat) : Plain (nameOf table code) := by
  unfold nameOf
  cases hh : ((table.filter fun e => e.2 == code).map Prod.fst).head? with
  | none => simp [Plain]
  | some s =>
    have := List.mem_of_head? hh
    simp only [List.mem_map, List.mem_filter] at this
    obtain ⟨e, ⟨he, _⟩, rfl⟩ := this
    exact h e he

theorem prettify_eq (code : Nat) (table : List (String × Nat)) : prettify code table = (nameOf table code).toList ++ [' ', '0', 'x'] ++ hex2 code := rfl

theorem hex_plain {c : Char} (h : isDigit 16 c = true) : c ≠ ':' ∧ c ≠ '=' ∧ c ≠ ' ' := by
  refine ⟨?_, ?_, ?_⟩ <;> (rintro rfl; exact absurd h (by decide))

theorem read_prettify (sp : List Char) (hsp : ∀ c ∈ sp, c = ' ') (code : Nat) (table : List (String × Nat)) (h : ∀ e ∈ table, Plain e.1) (rest : List Char) (hr : Stops rest) :
    nameAndNumber (sp ++ (prettify code table ++ rest)) = (nameOf table code, code) := by
  have hp := nameOf_plain table h code
  have e : sp ++ (prettify code table ++ rest) = (sp ++ (nameOf table code).toList ++ [' ', '0']) ++ 'x' :: (hex2 code ++ rest) := by
    rw [prettify_eq]; simp [List.append_assoc]
  have hx : ∀ c ∈ sp ++ (nameOf table code).toList ++ [' ', '0'], (decide (c ≠ 'x')) = true := by
    intro c hc
    simp only [List.mem_append, List.mem_cons, List.not_mem_nil, or_false] at hc
    rcases hc with (hc | hc) | rfl | rfl
    · rw [hsp c hc]; decide
    · simpa using (hp c hc).1
    · decide
    · decide
  rw [e]
  unfold nameAndNumber
  rw [takeWhile_stop _ _ _ _ hx (by decide), dropWhile_stop _ _ _ _ hx (by decide)]
  rw [List.drop_one, List.tail_cons, number_stops code rest hr]
  congr 1
  rw [show sp ++ (nameOf table code).toList ++ [' ', '0'] = (sp ++ (nameOf table code).toList ++ [' ']) ++ ['0'] by simp, List.dropLast_concat]
  rw [List.filter_append, List.filter_append]
  have h1 : sp.filter (fun c => decide (c ≠ ' ')) = [] := by
    rw [List.filter_eq_nil_iff]; intro c hc; simp [hsp c hc]
  have h2 : (nameOf table code).toList.filter (fun c => decide (c ≠ ' ')) = (nameOf table code).toList := by
    rw [List.filter_eq_self]; intro c hc; simpa using (hp c hc).2.1
  rw [h1, h2]
  simp

theorem read_hex (code : Nat) (rest : List Char) (hr : Stops rest) :
    nameAndNumber (" 0x".toList ++ (hex2 code ++ rest)) = ("", code) := by
  have := read_prettify [] (by simp) code [] (by simp) rest hr
  rw [List.nil_append, prettify_eq] at this
  simpa [nameOf] using this

/-! ## Labels -/

theorem parts_none (sep : Char) (t : List Char) (h : ∀ c ∈ t, c ≠ sep) : parts sep t = [t] := by
  induction t with
  | nil => rfl
  | cons c t ih => rw [parts, if_neg (h c (by simp)), ih (fun d hd => h d (by simp [hd]))]

theorem parts_cons (sep : Char) (t rest : List Char) (h : ∀ c ∈ t, c ≠ sep) : parts sep (t ++ sep :: rest) = t :: parts sep rest := by
  induction t with
  | nil => rw [List.nil_append, parts, if_pos rfl]
  | cons c t ih => rw [List.cons_append, parts, if_neg (h c (by simp)), ih (fun d hd => h d (by simp [hd]))]

theorem prettify_sep {code : Nat} {table : List (String × Nat)} (h : ∀ e ∈ table, Plain e.1) : ∀ c ∈ prettify code table, c ≠ ':' ∧ c ≠ '=' := by
  have hp := nameOf_plain table h code
  intro c hc
  rw [prettify_eq] at hc
  simp only [List.mem_append, List.mem_cons, List.not_mem_nil, or_false] at hc
  rcases hc with (hc | rfl | rfl | rfl) | hc
  · exact ⟨(hp c hc).2.2.1, (hp c hc).2.2.2⟩
  · decide
  · decide
  · decide
  · exact ⟨(hex_plain ((hex2_ok code).1 c hc)).1, (hex_plain ((hex2_ok code).1 c hc)).2.1⟩

theorem statusCodes_plain : ∀ e ∈ statusCodes, Plain e.1 := by decide +kernel
theorem driverCodes_plain : ∀ e ∈ driverCodes, Plain e.1 := by decide +kernel
theorem hostCodes_plain : ∀ e ∈ hostCodes, Plain e.1 := by decide +kernel
theorem validityCodes_plain : ∀ e ∈ validityCodes, Plain e.1 := by decide +kernel
theorem adapterCodes_plain : ∀ e ∈ adapterCodes, Plain e.1 := by decide +kernel
theorem einvalCodes_plain : ∀ e ∈ einvalCodes, Plain e.1 := by decide +kernel

theorem names {table : List (String × Nat)} {f : Nat → String} (bound : Nat) (hb : ∀ e ∈ table, e.2 < bound)
    (h : ∀ n, n < bound → nameOf table n = f n) (hf : ∀ n, bound ≤ n → f n = "") (n : Nat) : nameOf table n = f n := by
  by_cases hn : n < bound
  · exact h n hn
  · rw [hf n (by omega)]
    have : (table.filter fun e => e.2 == n) = [] := by
      rw [List.filter_eq_nil_iff]
      intro e he
      have := hb e he
      simp; omega
    simp [nameOf, this]

theorem status_names (n : Nat) : nameOf statusCodes n = statusName n :=
  names 65 (by decide) (by decide +kernel) (by intro n hn; unfold statusName; split <;> first | rfl | omega) n
theorem driver_names (n : Nat) (h : n < 16) : nameOf driverCodes n = driverName n := by
  have : ∀ n, n < 16 → nameOf driverCodes n = driverName n := by decide +kernel
  exact this n h
theorem host_names (n : Nat) : nameOf hostCodes n = hostName n :=
  names 12 (by decide) (by decide +kernel) (by intro n hn; unfold hostName; split <;> first | rfl | omega) n
theorem validity_names (n : Nat) : nameOf validityCodes n = validityName n :=
  names 3 (by decide) (by decide +kernel) (by intro n hn; unfold validityName; split <;> first | rfl | omega) n
theorem adapter_names (n : Nat) : nameOf adapterCodes n = adapterName n :=
  names 16 (by decide) (by decide +kernel) (by intro n hn; unfold adapterName; split <;> first | rfl | omega) n
theorem einval_names (n : Nat) : nameOf einvalCodes n = einvalName n :=
  names 25 (by decide) (by decide +kernel) (by intro n hn; unfold einvalName; split <;> first | rfl | omega) n

/-! ## Linux -/

theorem low4 (n : Nat) : n &&& 0x0f = n % 16 := Nat.and_two_pow_sub_one_eq_mod n 4

/-- The parts of the long text. -/
theorem full_parts (head : List Char) (hh : ∀ c ∈ head, c ≠ ':') (status driver host : Nat) :
    parts ':' ((head ++ [':', ' ']) ++ prettify status statusCodes ++ "(driver status: ".toList ++ prettify (driver &&& 0x0f) driverCodes ++ ", host status: ".toList ++
      prettify host hostCodes ++ ")".toList) =
    [head, ' ' :: (prettify status statusCodes ++ "(driver status".toList), ' ' :: (prettify (driver &&& 0x0f) driverCodes ++ ", host status".toList),
      ' ' :: (prettify host hostCodes ++ [')'])] := by
  have e : (head ++ [':', ' ']) ++ prettify status statusCodes ++ "(driver status: ".toList ++ prettify (driver &&& 0x0f) driverCodes ++ ", host status: ".toList ++
      prettify host hostCodes ++ ")".toList =
      head ++ ':' :: ((' ' :: (prettify status statusCodes ++ "(driver status".toList)) ++ ':' ::
        ((' ' :: (prettify (driver &&& 0x0f) driverCodes ++ ", host status".toList)) ++ ':' :: (' ' :: (prettify host hostCodes ++ [')'])))) := by
    simp [List.append_assoc]
  have h1 := prettify_sep (code := status) statusCodes_plain
  have h2 := prettify_sep (code := driver &&& 0x0f) driverCodes_plain
  have h3 := prettify_sep (code := host) hostCodes_plain
  rw [e, parts_cons ':' _ _ hh, parts_cons, parts_cons, parts_none]
  · intro c hc
    simp only [List.mem_cons, List.mem_append, List.not_mem_nil, or_false] at hc
    rcases hc with rfl | hc | rfl
    · decide
    · exact (h3 c hc).1
    · decide
  · intro c hc
    rcases List.mem_cons.1 hc with rfl | hc
    · decide
    · rcases List.mem_append.1 hc with hc | hc
      · exact (h2 c hc).1
      · exact (by decide : ∀ c ∈ ", host status".toList, c ≠ ':') c hc
  · intro c hc
    rcases List.mem_cons.1 hc with rfl | hc
    · decide
    · rcases List.mem_append.1 hc with hc | hc
      · exact (h1 c hc).1
      · exact (by decide : ∀ c ∈ "(driver status".toList, c ≠ ':') c hc

theorem suffix_yes (label a : List Char) : label.isSuffixOf (a ++ label) = true := by
  rw [List.isSuffixOf_iff_suffix]; exact List.suffix_append a label

theorem suffix_no {label : List Char} (a b : List Char) (hl : b.length ≤ label.length) (h : b.isSuffixOf label = false) : label.isSuffixOf (a ++ b) = false := by
  cases hs : label.isSuffixOf (a ++ b) with
  | false => rfl
  | true =>
    rw [List.isSuffixOf_iff_suffix] at hs
    have := List.suffix_of_suffix_length_le (List.suffix_append a b) hs hl
    rw [← List.isSuffixOf_iff_suffix, h] at this
    cases this

/-- What the long text says behind its three labels. -/
theorem told_full (head full : String) (e : full.toList = head.toList ++ [':', ' ']) (hh : ∀ c ∈ head.toList, c ≠ ':') (h1 : "driver status".toList.isSuffixOf head.toList = false)
    (h2 : "host status".toList.isSuffixOf head.toList = false) (status driver host : Nat) :
    told ':' head (linuxFull full status driver host) = some (statusName status, status) ∧
    told ':' "driver status" (linuxFull full status driver host) = some (driverName (driver % 16), driver % 16) ∧
    told ':' "host status" (linuxFull full status driver host) = some (hostName host, host) := by
  have hp := full_parts head.toList hh status driver host
  unfold told linuxFull
  rw [e, hp]
  have s1 : "driver status".toList.isSuffixOf (' ' :: (prettify status statusCodes ++ "(driver status".toList)) = true := by
    rw [show ' ' :: (prettify status statusCodes ++ "(driver status".toList) = (' ' :: (prettify status statusCodes ++ ['('])) ++ "driver status".toList by simp]
    exact suffix_yes _ _
  have s2 : "host status".toList.isSuffixOf (' ' :: (prettify status statusCodes ++ "(driver status".toList)) = false := by
    rw [show ' ' :: (prettify status statusCodes ++ "(driver status".toList) = (' ' :: (prettify status statusCodes ++ "(drive".toList)) ++ "r status".toList by simp]
    exact suffix_no _ _ (by decide) (by decide)
  have s3 : "host status".toList.isSuffixOf (' ' :: (prettify (driver &&& 0x0f) driverCodes ++ ", host status".toList)) = true := by
    rw [show ' ' :: (prettify (driver &&& 0x0f) driverCodes ++ ", host status".toList) =
      (' ' :: (prettify (driver &&& 0x0f) driverCodes ++ [',', ' '])) ++ "host status".toList by simp]
    exact suffix_yes _ _
  have r1 := read_prettify [' '] (by simp) status statusCodes statusCodes_plain "(driver status".toList (.inr ⟨'(', _, rfl, by decide⟩)
  have r2 := read_prettify [' '] (by simp) (driver &&& 0x0f) driverCodes driverCodes_plain ", host status".toList (.inr ⟨',', _, rfl, by decide⟩)
  have r3 := read_prettify [' '] (by simp) host hostCodes hostCodes_plain [')'] (.inr ⟨')', _, rfl, by decide⟩)
  rw [status_names] at r1
  rw [driver_names _ (by rw [low4]; omega), low4] at r2
  rw [host_names] at r3
  rw [low4] at s3 ⊢
  refine ⟨?_, ?_, ?_⟩
  · rw [partAfter, if_pos (show head.toList.isSuffixOf head.toList = true from suffix_yes head.toList [])]
    exact congrArg some r1
  · rw [partAfter, if_neg (by rw [h1]; decide), partAfter, if_pos s1]
    exact congrArg some r2
  · rw [partAfter, if_neg (by rw [h2]; decide), partAfter, if_neg (by rw [s2]; decide), partAfter, if_pos s3]
    exact congrArg some r3

variable {S : Type}

/-- There is a text exactly for the responses that become an `AsiSCSIError` without a class of its own. -/
theorem linux_which (a : Abi) (parse : Bytes → Py (Option S)) (getOs : Int → Option Handle) (m : Mem) (raw : Bytes) (hlen : Linux.sgioSize a ≤ raw.length) :
    Linux.handleRawResponse a parse getOs m raw = .ok (.exc .scsi, load a (Linux.fld a "pack_id") raw) ↔ (linuxMessage a raw).isSome := by
  unfold Linux.handleRawResponse linuxMessage linuxText
  rw [if_neg (by omega)]
  simp only
  generalize (load a (Linux.fld a "status") raw).toNat = status
  generalize (load a (Linux.fld a "driver_status") raw).toNat = driver
  generalize (load a (Linux.fld a "host_status") raw).toNat = host
  split
  · simp only [checkCondition]
    cases parse (readMem m (load a (Linux.fld a "sbp") raw).toNat Linux.senseSize) <;> simp
  · split
    · split
      · simp
      · split <;> simp
    · split
      · simp
      · split
        · simp
        · cases Linux.successData a m (getOs (load a (Linux.fld a "pack_id") raw)) <;> simp

/-- **C89 on Linux** (partial: not for failures of the driver alone, see `C89_linux_driver_false`, and for failures of the host see
`C89_linux_host_false`). When the device reports a status, the text has the status, the driver status and the host status, each behind its label, by number and,
if it has one, by name. -/
theorem C89_linux_partial (a : Abi) (parse : Bytes → Py (Option S)) (getOs : Int → Option Handle) (m : Mem) (raw : Bytes) (hlen : Linux.sgioSize a ≤ raw.length)
    (hexc : Linux.handleRawResponse a parse getOs m raw = .ok (.exc .scsi, load a (Linux.fld a "pack_id") raw)) :
    let status := (load a (Linux.fld a "status") raw).toNat
    let driver := (load a (Linux.fld a "driver_status") raw).toNat
    let host := (load a (Linux.fld a "host_status") raw).toNat
    status ≠ 0 →
    ∃ text, linuxMessage a raw = some text ∧
      told ':' "SCSI response status is not zero" text = some (statusName status, status) ∧
      told ':' "driver status" text = some (driverName (driver % 16), driver % 16) ∧
      told ':' "host status" text = some (hostName host, host) := by
  intro status driver host hs
  obtain ⟨text, ht⟩ := Option.isSome_iff_exists.1 ((linux_which a parse getOs m raw hlen).1 hexc)
  refine ⟨text, ht, ?_⟩
  unfold linuxMessage at ht
  change linuxText status driver host = some text at ht
  unfold linuxText at ht
  simp only [if_pos hs] at ht
  split at ht
  · cases ht
  · split at ht
    · cases ht
    · split at ht
      · cases ht
      · simp only [Option.some.injEq] at ht
        rw [← ht]
        exact told_full "SCSI response status is not zero" "SCSI response status is not zero: " (by decide) (by decide) (by decide) (by decide) status driver host

/-- **C89 on Linux, failures of the host alone**: the driver and host status are right behind their labels. -/
theorem C89_linux_host_partial (status driver host : Nat) (text : List Char) (h : linuxText status driver host = some text) (hs : status = 0) (hd : driver % 16 = 0) :
    told ':' "driver status" text = some ("SG_ERR_DRIVER_OK", 0) ∧ told ':' "host status" text = some (hostName host, host) := by
  unfold linuxText at h
  rw [low4] at h
  split at h
  · cases h
  · rw [if_neg (by simpa using hs), if_neg (by simpa using hd)] at h
    split at h
    · simp only [Option.some.injEq] at h
      rw [← h]
      have := told_full "SCSI host status is not zero" "SCSI host status is not zero: " (by decide) (by decide) (by decide) (by decide) status driver host
      rw [hd] at this
      exact this.2
    · cases h

/-- **C89 is false for failures of the host alone**: behind `SCSI host status is not zero:` the text has the SCSI status, `SCSI_STATUS_GOOD 0x00`. -/
theorem C89_linux_host_false (host : Nat) (hh : host ≠ 0) :
    ∃ text, linuxText 0 0 host = some text ∧ told ':' "SCSI host status is not zero" text = some ("SCSI_STATUS_GOOD", 0) :=
  ⟨_, by unfold linuxText; rw [if_neg (by decide), if_neg (by decide), if_neg (by decide), if_pos hh],
    (told_full "SCSI host status is not zero" "SCSI host status is not zero: " (by decide) (by decide) (by decide) (by decide) 0 0 host).1⟩

/-- **C89 is false for failures of the driver**: whatever the host status is, the text has the SCSI status (0) where it says driver response status, and
the driver status where it says host status. -/
theorem C89_linux_driver_false (driver host : Nat) (h8 : driver &&& 8 = 0) (hd : driver % 16 ≠ 0) :
    ∃ text, linuxText 0 driver host = some text ∧ told ':' "SCSI driver response status is not zero" text = some ("SCSI_STATUS_GOOD", 0) ∧
      told ':' "host status" text = some (driverName (driver % 16), driver % 16) := by
  refine ⟨_, by unfold linuxText; rw [if_neg (by simp [h8]), if_neg (by decide), if_pos (by rw [low4]; exact hd)], ?_⟩
  have h1 := prettify_sep (code := 0) statusCodes_plain
  have h2 := prettify_sep (code := driver &&& 0x0f) driverCodes_plain
  have e : "SCSI driver response status is not zero: ".toList ++ prettify 0 statusCodes ++ " (host status: ".toList ++ prettify (driver &&& 0x0f) driverCodes ++ ")".toList =
      "SCSI driver response status is not zero".toList ++ ':' :: ((' ' :: (prettify 0 statusCodes ++ " (host status".toList)) ++ ':' ::
        (' ' :: (prettify (driver &&& 0x0f) driverCodes ++ [')']))) := by
    simp [List.append_assoc]
  have hp : parts ':' ("SCSI driver response status is not zero: ".toList ++ prettify 0 statusCodes ++ " (host status: ".toList ++ prettify (driver &&& 0x0f) driverCodes ++ ")".toList) =
      ["SCSI driver response status is not zero".toList, ' ' :: (prettify 0 statusCodes ++ " (host status".toList),
        ' ' :: (prettify (driver &&& 0x0f) driverCodes ++ [')'])] := by
    rw [e, parts_cons ':' _ _ (by decide), parts_cons, parts_none]
    · intro c hc
      simp only [List.mem_cons, List.mem_append, List.not_mem_nil, or_false] at hc
      rcases hc with rfl | hc | rfl
      · decide
      · exact (h2 c hc).1
      · decide
    · intro c hc
      rcases List.mem_cons.1 hc with rfl | hc
      · decide
      · rcases List.mem_append.1 hc with hc | hc
        · exact (h1 c hc).1
        · exact (by decide : ∀ c ∈ " (host status".toList, c ≠ ':') c hc
  have s3 : "host status".toList.isSuffixOf (' ' :: (prettify 0 statusCodes ++ " (host status".toList)) = true := by
    rw [show ' ' :: (prettify 0 statusCodes ++ " (host status".toList) = (' ' :: (prettify 0 statusCodes ++ [' ', '('])) ++ "host status".toList by simp]
    exact suffix_yes _ _
  have r1 := read_prettify [' '] (by simp) 0 statusCodes statusCodes_plain " (host status".toList (.inr ⟨' ', _, rfl, by decide⟩)
  have r2 := read_prettify [' '] (by simp) (driver &&& 0x0f) driverCodes driverCodes_plain [')'] (.inr ⟨')', _, rfl, by decide⟩)
  rw [status_names] at r1
  rw [driver_names _ (by rw [low4]; omega), low4] at r2
  unfold told
  rw [hp]
  refine ⟨?_, ?_⟩
  · rw [partAfter, if_pos (by decide)]
    exact congrArg some r1
  · rw [partAfter, if_neg (by decide), partAfter, if_pos s3, low4]
    exact congrArg some r2

/-- So the host status is nowhere in the text of a failure of the driver. -/
theorem C89_linux_driver_lost_false (driver host host' : Nat) (hd : driver % 16 ≠ 0) : linuxText 0 driver host = linuxText 0 driver host' := by
  unfold linuxText
  rw [low4]
  split
  · rfl
  · simp [hd]

example : (5 : Nat) &&& 8 = 0 ∧ 5 % 16 ≠ 0 ∧ linuxText 0 5 1 = some "SCSI driver response status is not zero: SCSI_STATUS_GOOD 0x00 (host status: SG_ERR_DRIVER_INVALID 0x05)".toList ∧
    linuxText 8 0 1 = some "SCSI response status is not zero: SCSI_STATUS_BUSY 0x08(driver status: SG_ERR_DRIVER_OK 0x00, host status: SG_ERR_DID_NO_CONNECT 0x01)".toList ∧
    linuxText 0 0 1 = some "SCSI host status is not zero: SCSI_STATUS_GOOD 0x00(driver status: SG_ERR_DRIVER_OK 0x00, host status: SG_ERR_DID_NO_CONNECT 0x01)".toList := by
  decide +kernel

/-! ## AIX -/

theorem aix_parts (head : List Char) (hh : ∀ c ∈ head, c ≠ '=') (validity bus adapter : Nat) :
    parts '=' (head ++ ", validity=".toList ++ prettify validity validityCodes ++ ", scsi_bus_status=".toList ++ prettify bus statusCodes ++
      ", adapter_status=".toList ++ prettify adapter adapterCodes) =
    [head ++ ", validity".toList, prettify validity validityCodes ++ ", scsi_bus_status".toList, prettify bus statusCodes ++ ", adapter_status".toList,
      prettify adapter adapterCodes] := by
  have e : head ++ ", validity=".toList ++ prettify validity validityCodes ++ ", scsi_bus_status=".toList ++ prettify bus statusCodes ++
      ", adapter_status=".toList ++ prettify adapter adapterCodes =
      (head ++ ", validity".toList) ++ '=' :: ((prettify validity validityCodes ++ ", scsi_bus_status".toList) ++ '=' ::
        ((prettify bus statusCodes ++ ", adapter_status".toList) ++ '=' :: prettify adapter adapterCodes)) := by
    simp [List.append_assoc]
  have h1 := prettify_sep (code := validity) validityCodes_plain
  have h2 := prettify_sep (code := bus) statusCodes_plain
  have h3 := prettify_sep (code := adapter) adapterCodes_plain
  rw [e, parts_cons, parts_cons, parts_cons, parts_none]
  · exact fun c hc => (h3 c hc).2
  · intro c hc
    rcases List.mem_append.1 hc with hc | hc
    · exact (h2 c hc).2
    · exact (by decide : ∀ c ∈ ", adapter_status".toList, c ≠ '=') c hc
  · intro c hc
    rcases List.mem_append.1 hc with hc | hc
    · exact (h1 c hc).2
    · exact (by decide : ∀ c ∈ ", scsi_bus_status".toList, c ≠ '=') c hc
  · intro c hc
    rcases List.mem_append.1 hc with hc | hc
    · exact hh c hc
    · exact (by decide : ∀ c ∈ ", validity".toList, c ≠ '=') c hc

theorem told_aix (head : String) (hh : ∀ c ∈ head.toList, c ≠ '=') (validity bus adapter : Nat) :
    told '=' "validity" (aixFull head validity bus adapter) = some (validityName validity, validity) ∧
    told '=' "scsi_bus_status" (aixFull head validity bus adapter) = some (statusName (bus &&& 0x1e), bus &&& 0x1e) ∧
    told '=' "adapter_status" (aixFull head validity bus adapter) = some (adapterName adapter, adapter) := by
  have hp := aix_parts head.toList hh validity (bus &&& 0x1e) adapter
  unfold told aixFull
  rw [hp]
  generalize bus &&& 0x1e = b
  have a1 : ∀ x : List Char, x ++ ", validity".toList = (x ++ ", ".toList) ++ "validity".toList := by simp
  have a2 : ∀ x : List Char, x ++ ", scsi_bus_status".toList = (x ++ ", ".toList) ++ "scsi_bus_status".toList := by simp
  have a3 : ∀ x : List Char, x ++ ", adapter_status".toList = (x ++ ", ".toList) ++ "adapter_status".toList := by simp
  have a4 : ∀ x : List Char, x ++ ", scsi_bus_status".toList = (x ++ ", scsi_bu".toList) ++ "s_status".toList := by simp
  have r1 := read_prettify [] (by simp) validity validityCodes validityCodes_plain ", scsi_bus_status".toList (.inr ⟨',', _, rfl, by decide⟩)
  have r2 := read_prettify [] (by simp) b statusCodes statusCodes_plain ", adapter_status".toList (.inr ⟨',', _, rfl, by decide⟩)
  have r3 := read_prettify [] (by simp) adapter adapterCodes adapterCodes_plain [] (.inl rfl)
  rw [validity_names] at r1
  rw [status_names] at r2
  rw [adapter_names, List.append_nil] at r3
  refine ⟨?_, ?_, ?_⟩
  · rw [partAfter, if_pos (by rw [a1]; exact suffix_yes _ _)]
    exact congrArg some r1
  · rw [partAfter, if_neg (by rw [a1, suffix_no _ _ (by decide) (by decide)]; decide), partAfter, if_pos (by rw [a2]; exact suffix_yes _ _)]
    exact congrArg some r2
  · rw [partAfter, if_neg (by rw [a1, suffix_no _ _ (by decide) (by decide)]; decide), partAfter,
      if_neg (by rw [a4, suffix_no _ _ (by decide) (by decide)]; decide), partAfter, if_pos (by rw [a3]; exact suffix_yes _ _)]
    exact congrArg some r3

theorem aix_which (a : Abi) (parse : Bytes → Py (Option S)) (request : Option Handle) (m : Mem) (raw : Bytes) (hlen : Aix.size a ≤ raw.length) :
    Aix.handleRawResponse a parse request m raw = .ok (.exc .scsi, 0) ↔ (aixMessage a raw).isSome := by
  unfold Aix.handleRawResponse aixMessage aixText
  rw [if_neg (by omega)]
  simp only
  generalize (load a (Aix.fld a "status_validity") raw).toNat = validity
  generalize (load a (Aix.fld a "scsi_bus_status") raw).toNat = bus
  split
  · split
    · split
      · simp only [checkCondition]
        cases parse (readMem m (load a (Aix.fld a "autosense_buffer_ptr") raw).toNat Aix.senseSize) <;> simp
      · simp
    · split <;> simp
  · cases Aix.successData a m request <;> simp

/-- **C89 on AIX** (partial: the status of the device is right only if it has no bits outside of the mask 1Eh, see `C89_aix_false`): the text has the
validity, the status and the adapter status, each behind its label, by number and, if it has one, by name. -/
theorem C89_aix_partial (a : Abi) (parse : Bytes → Py (Option S)) (request : Option Handle) (m : Mem) (raw : Bytes) (hlen : Aix.size a ≤ raw.length)
    (hexc : Aix.handleRawResponse a parse request m raw = .ok (.exc .scsi, 0)) :
    let validity := (load a (Aix.fld a "status_validity") raw).toNat
    let bus := (load a (Aix.fld a "scsi_bus_status") raw).toNat
    let adapter := (load a (Aix.fld a "adapter_status") raw).toNat
    ∃ text, aixMessage a raw = some text ∧
      told '=' "validity" text = some (validityName validity, validity) ∧
      (bus &&& 0x1e = bus → told '=' "scsi_bus_status" text = some (statusName bus, bus)) ∧
      told '=' "adapter_status" text = some (adapterName adapter, adapter) := by
  intro validity bus adapter
  obtain ⟨text, ht⟩ := Option.isSome_iff_exists.1 ((aix_which a parse request m raw hlen).1 hexc)
  refine ⟨text, ht, ?_⟩
  unfold aixMessage at ht
  change aixText validity bus adapter = some text at ht
  have key : ∃ head : String, (∀ c ∈ head.toList, c ≠ '=') ∧ text = aixFull head validity bus adapter := by
    unfold aixText at ht
    split at ht
    · split at ht
      · split at ht
        · cases ht
        · exact ⟨"SCSI bus response status is not zero", by decide, (Option.some.inj ht).symm⟩
      · split at ht
        · exact ⟨"SCSI adapter response status is not zero", by decide, (Option.some.inj ht).symm⟩
        · exact ⟨"SCSI response status validity unknown", by decide, (Option.some.inj ht).symm⟩
    · cases ht
  obtain ⟨head, hh, rfl⟩ := key
  have := told_aix head hh validity bus adapter
  refine ⟨this.1, fun hb => ?_, this.2.2⟩
  have h2 := this.2.1
  rwa [hb] at h2

/-- **C89 is false on AIX**: TASK SET FULL (28h) is told as BUSY (08h), and TASK ABORTED (40h) as GOOD. -/
theorem C89_aix_false (adapter : Nat) :
    ∃ text text', aixText 1 0x28 adapter = some text ∧ told '=' "scsi_bus_status" text = some ("SCSI_STATUS_BUSY", 0x08) ∧
      aixText 1 0x40 adapter = some text' ∧ told '=' "scsi_bus_status" text' = some ("SCSI_STATUS_GOOD", 0x00) :=
  have h1 := (told_aix "SCSI bus response status is not zero" (by decide) 1 0x28 adapter).2.1
  have h2 := (told_aix "SCSI bus response status is not zero" (by decide) 1 0x40 adapter).2.1
  ⟨aixFull "SCSI bus response status is not zero" 1 0x28 adapter, aixFull "SCSI bus response status is not zero" 1 0x40 adapter,
    by simp only [aixText]; rfl, h1.trans (by decide), by simp only [aixText]; rfl, h2.trans (by decide)⟩

/-- **C89 on AIX, invalid arguments**: the text names the argument that the driver complains about. -/
theorem C89_aix_invalid (code : Nat) : told ':' "invalid argument" (aixInvalid code) = some (einvalName code, code) := by
  have r := read_prettify [' '] (by simp) code einvalCodes einvalCodes_plain [] (.inl rfl)
  rw [einval_names, List.append_nil] at r
  have h1 := prettify_sep (code := code) einvalCodes_plain
  have e : aixInvalid code = "ioctl failed, invalid argument".toList ++ ':' :: ([' '] ++ prettify code einvalCodes) := by
    unfold aixInvalid
    generalize prettify code einvalCodes = x
    simp
  unfold told
  rw [e]
  generalize einvalName code = name at r ⊢
  generalize prettify code einvalCodes = x at r h1 ⊢
  have h2 : ∀ c ∈ [' '] ++ x, c ≠ ':' := by
    intro c hc
    rcases List.mem_append.1 hc with hc | hc
    · rw [List.mem_singleton.1 hc]; decide
    · exact (h1 c hc).1
  rw [parts_cons ':' _ _ (by decide), parts_none ':' _ h2, partAfter, if_pos (by decide), Option.map_some, r]

/-! ## Solaris -/

theorem hex2_sep {n : Nat} : ∀ c ∈ hex2 n, c ≠ ':' := fun c hc => (hex_plain ((hex2_ok n).1 c hc)).1

theorem rqstatus_nonneg (a : Abi) (raw : Bytes) : 0 ≤ load a (Solaris.fld a "uscsi_rqstatus") raw := by
  have h : (Solaris.fld a "uscsi_rqstatus").signed = false := by rcases a with ⟨l, p, q⟩; cases p <;> rfl
  unfold load
  simp [h]

theorem solaris_which (a : Abi) (parse : Bytes → Py (Option S)) (request : Option Handle) (m : Mem) (raw : Bytes) (hlen : Solaris.size a ≤ raw.length) :
    Solaris.handleRawResponse a parse request m raw = .ok (.exc .scsi, 0) ↔ (solarisMessage a raw).isSome := by
  unfold Solaris.handleRawResponse solarisMessage solarisText
  rw [if_neg (by omega)]
  have hrq := rqstatus_nonneg a raw
  simp only
  generalize (load a (Solaris.fld a "uscsi_status") raw % 256).toNat = status
  generalize load a (Solaris.fld a "uscsi_rqstatus") raw = rq at hrq ⊢
  split
  · simp only [checkCondition]
    cases parse (readMem m (load a (Solaris.fld a "uscsi_rqbuf") raw).toNat Solaris.senseSize) <;> simp
  · split
    · simp
    · have hiff : rq ≠ 0 ↔ rq.toNat ≠ 0 := by omega
      by_cases h : rq ≠ 0
      · rw [if_pos h, if_pos (hiff.1 h)]; simp
      · rw [if_neg h, if_neg (fun hh => h (hiff.2 hh))]
        cases Solaris.successData a m request <;> simp

theorem told_solaris (status : Int) (rqstatus : Nat) (text : List Char) (h : solarisText status rqstatus = some text) :
    ((status % 256).toNat ≠ 0 → told ':' "SCSI response status is not zero" text = some ("", (status % 256).toNat)) ∧
    ((status % 256).toNat = 0 → told ':' "SCSI request commmand status is not zero" text = some ("", rqstatus)) := by
  unfold solarisText at h
  generalize hr : solarisReason status = reason at h
  generalize (status % 256).toNat = code at h ⊢
  simp only at h
  split at h
  · cases h
  · split at h
    · rename_i hc
      refine ⟨fun _ => ?_, fun h0 => absurd h0 hc⟩
      simp only [Option.some.injEq] at h
      have e : text = "SCSI response status is not zero".toList ++ ':' :: ((" 0x".toList ++ (hex2 code ++ " (SCSI reason".toList)) ++ ':' :: (" 0x".toList ++ (hex2 reason ++ ")".toList))) := by
        rw [← h]; simp [List.append_assoc]
      unfold told
      rw [e, parts_cons ':' _ _ (by decide), parts_cons]
      · rw [partAfter, if_pos (by decide)]
        exact congrArg some (read_hex code " (SCSI reason".toList (.inr ⟨' ', _, rfl, by decide⟩))
      · intro c hm
        rcases List.mem_append.1 hm with hm | hm
        · exact (by decide : ∀ c ∈ " 0x".toList, c ≠ ':') c hm
        · rcases List.mem_append.1 hm with hm | hm
          · exact hex2_sep c hm
          · exact (by decide : ∀ c ∈ " (SCSI reason".toList, c ≠ ':') c hm
    · rename_i hc
      refine ⟨fun h0 => absurd h0 hc, fun _ => ?_⟩
      split at h
      · simp only [Option.some.injEq] at h
        have e : text = "SCSI request commmand status is not zero".toList ++ ':' :: (" 0x".toList ++ (hex2 rqstatus ++ [])) := by
          rw [← h]; simp
        unfold told
        rw [e, parts_cons ':' _ _ (by decide), parts_none, partAfter, if_pos (by decide)]
        · exact congrArg some (read_hex rqstatus [] (.inl rfl))
        · intro c hm
          rw [List.append_nil] at hm
          rcases List.mem_append.1 hm with hm | hm
          · exact (by decide : ∀ c ∈ " 0x".toList, c ≠ ':') c hm
          · exact hex2_sep c hm
      · cases h

/-- **C89 on Solaris** (partial: without the reason, see `C89_solaris_false`): the text has the status of the device, or if that is 0 the status of
the REQUEST SENSE. -/
theorem C89_solaris_partial (a : Abi) (parse : Bytes → Py (Option S)) (request : Option Handle) (m : Mem) (raw : Bytes) (hlen : Solaris.size a ≤ raw.length)
    (hexc : Solaris.handleRawResponse a parse request m raw = .ok (.exc .scsi, 0)) :
    let status := (load a (Solaris.fld a "uscsi_status") raw % 256).toNat
    let rqstatus := (load a (Solaris.fld a "uscsi_rqstatus") raw).toNat
    ∃ text, solarisMessage a raw = some text ∧
      (status ≠ 0 → told ':' "SCSI response status is not zero" text = some ("", status)) ∧
      (status = 0 → told ':' "SCSI request commmand status is not zero" text = some ("", rqstatus)) := by
  intro status rqstatus
  obtain ⟨text, ht⟩ := Option.isSome_iff_exists.1 ((solaris_which a parse request m raw hlen).1 hexc)
  exact ⟨text, ht, told_solaris _ _ _ ht⟩

/-- **C89 is false on Solaris**: whatever `uscsi_reason` the driver reports, the text says that it is 0 (the shift of solaris.py:213 goes the wrong way). -/
theorem C89_solaris_false (code reason : UInt8) (rqstatus : Nat) (text : List Char) (hc : code ≠ 0)
    (h : solarisText ((code.toNat + 256 * reason.toNat : Nat) : Int) rqstatus = some text) : told ':' "SCSI reason" text = some ("", 0) := by
  have hlt : code.toNat < 256 := code.toNat_lt
  have hne : code.toNat ≠ 0 := fun h0 => hc (by apply UInt8.toNat_inj.1; simpa using h0)
  have hcode : (((code.toNat + 256 * reason.toNat : Nat) : Int) % 256).toNat = code.toNat := by omega
  have hreason : solarisReason ((code.toNat + 256 * reason.toNat : Nat) : Int) = 0 := by unfold solarisReason; omega
  unfold solarisText at h
  simp only [hcode, hreason, if_pos hne] at h
  split at h
  · cases h
  · simp only [Option.some.injEq] at h
    have e : text = "SCSI response status is not zero".toList ++ ':' :: ((" 0x".toList ++ (hex2 code.toNat ++ " (SCSI reason".toList)) ++ ':' :: (" 0x".toList ++ (hex2 0 ++ ")".toList))) := by
      rw [← h]; simp [List.append_assoc]
    unfold told
    rw [e, parts_cons ':' _ _ (by decide), parts_cons, parts_none, partAfter, if_neg (by decide), partAfter, if_pos]
    · exact congrArg some (read_hex 0 ")".toList (.inr ⟨')', _, rfl, by decide⟩))
    · rw [show " 0x".toList ++ (hex2 code.toNat ++ " (SCSI reason".toList) = (" 0x".toList ++ (hex2 code.toNat ++ " (".toList)) ++ "SCSI reason".toList by simp]
      exact suffix_yes _ _
    · intro c hm
      rcases List.mem_append.1 hm with hm | hm
      · exact (by decide : ∀ c ∈ " 0x".toList, c ≠ ':') c hm
      · rcases List.mem_append.1 hm with hm | hm
        · exact hex2_sep c hm
        · exact (by decide : ∀ c ∈ ")".toList, c ≠ ':') c hm
    · intro c hm
      rcases List.mem_append.1 hm with hm | hm
      · exact (by decide : ∀ c ∈ " 0x".toList, c ≠ ':') c hm
      · rcases List.mem_append.1 hm with hm | hm
        · exact hex2_sep c hm
        · exact (by decide : ∀ c ∈ " (SCSI reason".toList, c ≠ ':') c hm

/-! ## Windows -/

theorem win32_which (a : Abi) (parse : Bytes → Py (Option S)) (h : Win32.Spt) (m : Mem) :
    Win32.classify a parse h m = .ok (.exc .scsi) ↔ (win32Message a (readMem m h.blockAddr h.block.length)).isSome := by
  unfold Win32.classify win32Message win32Text
  simp only
  generalize (load a (Win32.fld a "ScsiStatus") (readMem m h.blockAddr h.block.length)).toNat = status
  split
  · split
    · simp only [checkCondition]
      generalize slice (readMem m h.blockAddr h.block.length) (Win32.fld a "sense_buffer").off ((Win32.fld a "sense_buffer").off + Win32.senseSize) = b
      cases parse b <;> simp
    · simp
  · split
    · cases Win32.cutData h m (load a (Win32.fld a "DataTransferLength") (readMem m h.blockAddr h.block.length)).toNat <;> simp
    · simp

/-- **C89 on Windows**: the text has the status of the device. -/
theorem C89_win32 (a : Abi) (parse : Bytes → Py (Option S)) (h : Win32.Spt) (m : Mem) (hexc : Win32.classify a parse h m = .ok (.exc .scsi)) :
    ∃ text, win32Message a (readMem m h.blockAddr h.block.length) = some text ∧
      toldDecimal "SCSI response status is not zero" text = some (load a (Win32.fld a "ScsiStatus") (readMem m h.blockAddr h.block.length)).toNat := by
  obtain ⟨text, ht⟩ := Option.isSome_iff_exists.1 ((win32_which a parse h m).1 hexc)
  refine ⟨text, ht, ?_⟩
  unfold win32Message at ht
  generalize (load a (Win32.fld a "ScsiStatus") (readMem m h.blockAddr h.block.length)).toNat = status at ht ⊢
  unfold win32Text at ht
  split at ht
  · split at ht
    · cases ht
    · simp only [Option.some.injEq] at ht
      obtain ⟨h1, h2⟩ := digits_ok 10 (by decide) (by decide) status
      have e : text = "SCSI response status is not zero".toList ++ ':' :: (' ' :: decimal status) := by rw [← ht]; simp
      have hdig : ∀ c ∈ decimal status, c ≠ ':' ∧ c ≠ ' ' := by
        intro c hc
        have := h1 c hc
        constructor <;> (rintro rfl; exact absurd this (by decide))
      have hd : (' ' :: decimal status).dropWhile (fun c => decide (c = ' ')) = decimal status := by
        rw [List.dropWhile_cons_of_pos (by decide)]
        cases hds : decimal status with
        | nil => rfl
        | cons c cs => rw [List.dropWhile_cons_of_neg (by simpa using (hdig c (by rw [hds]; simp)).2)]
      unfold toldDecimal
      rw [e, parts_cons ':' _ _ (by decide), parts_none, partAfter, if_pos (by decide)]
      · simp only [Option.map_some]
        rw [hd, show decimal status = digits 10 status from rfl, takeWhile_end _ _ h1]
        exact congrArg some h2
      · intro c hc
        rcases List.mem_cons.1 hc with rfl | hc
        · decide
        · exact (hdig c hc).1
  · cases ht

example : aixText 1 0x08 0 = some "SCSI bus response status is not zero, validity=SC_SCSI_ERROR 0x01, scsi_bus_status=SCSI_STATUS_BUSY 0x08, adapter_status= 0x00".toList ∧
    solarisText 0x0308 0 = some "SCSI response status is not zero: 0x08 (SCSI reason: 0x00)".toList ∧ win32Text 24 = some "SCSI response status is not zero: 24".toList := by
  decide +kernel

end Verif.Messages
