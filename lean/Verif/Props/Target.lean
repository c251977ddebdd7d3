import Verif.Spec.Target
import Verif.Props.Disk
import Verif.Props.Pages
import Verif.Props.Inquiry
import Verif.Props.StandardInquiry
import Verif.Props.Ses
/-!
# C62: what a target reports about itself reaches the caller

INQUIRY, REPORT LUNS, REPORT TARGET PORT GROUPS, RECEIVE COPY OPERATING PARAMETERS, RECEIVE DIAGNOSTIC RESULTS and PERSISTENT RESERVE IN, built by
the library, executed through driver, executer and operating system, in front of a target that answers by the standards.
-/
set_option linter.unusedSimpArgs false
set_option linter.unusedSectionVars false

namespace Verif.Commands

open Verif.Executer Verif.Coroutine Verif.ExecuterGen Verif.Platform Verif.Spec Verif.Spec.Disk Verif.Spec.Cdb Verif.Sense Verif.Spec.Target

/-! ## What the caller is told -/

/-- What a caller learns: a decoded response, that the target does not have what was asked for, or that there is more than fits. -/
inductive Told where
  | learns (p : Result → Prop)
  | refused
  /-- the response does not fit the space the command has for it; no part of it is passed on -/
  | incomplete

/-- The caller of a command sees what was told. -/
def Sees (r : Except (Exn (DevErr Sense)) (Option (Val (Option Bytes) (DevErr Sense) Result))) : Told → Prop
  | .learns p => ∃ x, r = .ok (some (.obj x)) ∧ p x
  | .refused => ∃ raw s, r = .error (.dev (.checkCondition raw (some s))) ∧ Says s 5 0x24 0
  | .incomplete => r = .error (.py .truncated)

/-- Standard INQUIRY data `b` as an object, as far as it was received. -/
def standardObject (b : Bytes) : Parse.StandardInquiry :=
  { page := ⟨Spec.peripheral b, Spec.standardInquiry b⟩
    vendor := Spec.withoutTail 0x20 ((b.drop 8).take 8)
    product := Spec.withoutTail 0x20 ((b.drop 16).take 16)
    revision := Spec.withoutTail 0x20 ((b.drop 32).take 4)
    extended :=
      if 31 < Spec.byteAt b 4 then
        let e := Spec.extendedPart b
        some
          { vendor1 := e.take 20
            ius := if 21 ≤ e.length then some (Spec.bitAt e 20 0 : Int) else none
            qas := if 21 ≤ e.length then some (Spec.bitAt e 20 1 : Int) else none
            clocking := if 21 ≤ e.length then some (Spec.bitsAt e 20 3 2 : Int) else none
            versions := if 24 ≤ e.length then some (Spec.versionDescriptors e) else none
            vendor2 := if 61 ≤ e.length then some (e.drop 60) else none }
      else none }

/-- A designation descriptor as an object. -/
def designatorOf (B : Parse.BufLib) (d : Bytes) : Parse.Designator :=
  ⟨Spec.designatorClass d, Spec.designatorHeader d ++ Spec.designatorNumbers d, Spec.designatorData B.trim d⟩

/-- The configuration object of an enclosure. -/
def configurationOf (B : Parse.BufLib) (generation : Nat) (es : List Bytes) (ts : List Spec.Ses.ElementType) : Parse.Ses.Configuration :=
  { attrs := Parse.Ses.configurationAttrs B generation es ts
    enclosures := es.map fun e =>
      { attrs := Spec.Ses.enclosureNumbers B.sg e, logicalId := (e.drop 4).take 8, vendor := B.trim ((e.drop 12).take 8),
        product := B.trim ((e.drop 20).take 16), revision := B.trim ((e.drop 36).take 4), vendorSpecific := e.drop 40 }
    headers := ts.map (Spec.Ses.typeNumbers B.sg)
    texts := ts.map Spec.Ses.ElementType.text }

/-- What the caller of a reporting command learns from target `t`. Every page is as long as its own length field says and fits the allocation length
the command has. -/
inductive Tells (B : Parse.BufLib) (t : Target) : Cmd → Told → Prop
  | ready : Tells B t .testUnitReady (.learns (· = .true))
  /-- standard INQUIRY data, cut at the allocation length -/
  | standard {n : Nat} : 36 ≤ n → n < 2 ^ 16 → 36 ≤ t.standard.length → byteAt t.standard 4 + 5 ≤ t.standard.length →
      Ascii ((t.standard.drop 8).take 28) →
      Tells B t (.standardInquiry 0 0 n) (.learns (· = .standard (standardObject (t.standard.take n))))
  | supported {b : Bytes} : t.vpd 0x00 = some b → 4 ≤ b.length → b.length = 4 + byteAt b 3 → b.length ≤ 252 →
      Tells B t (.vpd (getVpdPage 0x00)) (.learns (· = .bytes (⟨peripheral b, vpdHeaderShort b⟩, (b.drop 4).map UInt8.toNat)))
  | serial {b : Bytes} : t.vpd 0x80 = some b → 4 ≤ b.length → b.length = 4 + byteAt b 3 → b.length ≤ 252 → Ascii (b.drop 4) →
      Tells B t (.vpd (getVpdPage 0x80)) (.learns (· = .serial (⟨peripheral b, vpdHeaderShort b⟩, B.trim (b.drop 4))))
  | identification {first : UInt8} {ds : List Bytes} : t.vpd 0x83 = some (Spec.deviceIdentification first ds) →
      (∀ d ∈ ds, IsDesignator d ∧ TextOk d) → (B.lowFirst = true ∨ ∀ d ∈ ds, designatorType d ≠ 3) → ds.flatten.length ≤ 248 →
      Tells B t (.vpd (getVpdPage 0x83)) (.learns (· = .designators
        (⟨peripheral [first], [("page_code", 0x83), ("page_length", (ds.flatten.length : Int))]⟩, ds.map (designatorOf B))))
  | ata {b : Bytes} : t.vpd 0x89 = some b → b.length = 572 → Ascii ((b.drop 8).take 28) →
      Ascii ([40, 41, 42, 44, 45, 46].map fun i => b.getD i 0) → Ascii (wordText (b.drop 60) 10 19) → Ascii (wordText (b.drop 60) 23 26) →
      Ascii (wordText (b.drop 60) 27 45) →
      Tells B t (.vpd (getVpdPage 0x89)) (.learns (· = .ata
        { page := ⟨peripheral b, ataHeader B.sg b⟩
          vendor := B.trim ((b.drop 8).take 8)
          product := B.trim ((b.drop 16).take 16)
          revision := B.trim ((b.drop 32).take 4)
          signature := deviceSignature B.sg (b.drop 36)
          lba := B.trim ([40, 41, 42, 44, 45, 46].map fun i => b.getD i 0)
          identify := ⟨B.trim (wordText (b.drop 60) 10 19), B.trim (wordText (b.drop 60) 23 26),
            B.trim (wordText (b.drop 60) 27 45)⟩ }))
  | limits {b : Bytes} : t.vpd 0xb0 = some b → 44 ≤ b.length → b.length ≤ 252 →
      Tells B t (.vpd (getVpdPage 0xb0)) (.learns fun x => ∃ a : Nat,
        x = .page ⟨peripheral b, blockLimits b ++ [("unmap_granularity_alignment", (a : Int))]⟩ ∧ (B.lowFirst = true → a = unmapGranularityAlignment b))
  | provisioning {b d : Bytes} : t.vpd 0xb2 = some (b ++ d) → b.length = 8 → d.length ≤ 244 → IsDesignator d → TextOk d →
      (B.lowFirst = true ∨ designatorType d ≠ 3) →
      Tells B t (.vpd (getVpdPage 0xb2)) (.learns (· = .provisioning (⟨peripheral b, Spec.provisioning b⟩, some (designatorOf B d))))
  | veritas {b : Bytes} : t.vpd 0xc0 = some b → 6 ≤ b.length → b.length ≤ 252 →
      Tells B t (.vpd (getVpdPage 0xc0)) (.learns (· = .page ⟨peripheral b, Spec.veritas b⟩))
  | otherPage {p : Nat} {b : Bytes} : p < 256 → p ∉ [0x00, 0x80, 0x83, 0x89, 0xb0, 0xb2, 0xc0] → t.vpd p = some b → 4 ≤ b.length →
      b.length = 4 + num b 2 2 → b.length ≤ 2048 →
      Tells B t (.vpd (getVpdPage p)) (.learns (· = .bytes (⟨peripheral b, vpdHeader b⟩, (b.drop 4).map UInt8.toNat)))
  | noPage {p : Nat} : p < 256 → t.vpd p = none → Tells B t (.vpd (getVpdPage p)) .refused
  | luns {select n : Nat} {allow : Bool} {reserved : Bytes} {luns : List Nat} : select < 256 → 16 ≤ n → n < 2 ^ 32 →
      t.luns select = some (Spec.reportLuns reserved (luns.map simpleLun)) → reserved.length = 4 → (∀ l ∈ luns, l < 2 ^ 14) → 8 + 8 * luns.length ≤ n →
      Tells B t (.reportLuns select n allow) (.learns fun x => ∃ d, x = .luns (.data d) ∧ d.lunList = luns)
  /-- more LUNs than there is room for -/
  | manyLuns {select n : Nat} {allow : Bool} {reserved : Bytes} {entries : List Bytes} : select < 256 → 16 ≤ n → n < 2 ^ 32 →
      t.luns select = some (Spec.reportLuns reserved entries) → reserved.length = 4 → (∀ e ∈ entries, e.length = 8) →
      8 * entries.length < 2 ^ 32 → n < 8 + 8 * entries.length →
      Tells B t (.reportLuns select n allow) .incomplete
  | groups {n : Nat} {groups : List Bytes} : n < 2 ^ 32 → t.groups 0 = some (rtpgLengthOnly groups) → (∀ d ∈ groups, IsTargetPortGroup d) →
      (B.sg = true → ∀ d ∈ groups, byteAt d 5 < 128 ∧ byteAt d 7 < 128) → groups.flatten.length < 2 ^ 31 → 4 + groups.flatten.length ≤ n →
      Tells B t (.rtpg 0 n) (.learns (· = .groups
        { attrs := [("data_length", groups.flatten.length)]
          groups := groups.map fun d =>
            { attrs := targetPortGroup d, ports := (targetPorts d).map fun (p : Nat) => [("relative_target_port_identifier", (p : Int))] } }))
  | copy {n : Nat} {b : Bytes} : n < 2 ^ 32 → t.copy = some b → 44 ≤ b.length → b.length = 44 + byteAt b 43 → b.length ≤ n →
      Tells B t (.receiveCopy n 0) (.learns (· = .copy { attrs := Spec.receiveCopy b, descriptors := (b.drop 44).map UInt8.toNat }))
  | configuration {generation : Nat} {es : List Bytes} {ts : List Spec.Ses.ElementType} : t.diagnostic 1 = some (Spec.Ses.configuration generation es ts) →
      Spec.Ses.IsConfiguration generation es ts → (B.sg = true → Spec.Ses.Small es ts) → (Spec.Ses.configuration generation es ts).length ≤ 65535 →
      Tells B t (.ses (getSesPage 1) none) (.learns (· = .configuration (configurationOf B generation es ts)))
  | status {g generation : Nat} {es : List Bytes} {ss : List Spec.Ses.TypeStatus} {flags : UInt8} :
      t.diagnostic 2 = some (Spec.Ses.enclosureStatus flags generation ss) →
      Spec.Ses.IsConfiguration g es (ss.map (·.type)) → (B.sg = true → Spec.Ses.Small es (ss.map (·.type))) → (∀ s ∈ ss, s.Ok) →
      generation < 2 ^ 32 → (Spec.Ses.enclosureStatus flags generation ss).length ≤ 65535 →
      Tells B t (.ses (getSesPage 2) (some (configurationOf B g es (ss.map (·.type))))) (.learns (· =
        let r : Spec.Ses.Reading := { signed := B.sg, signedSensors := B.sg, fanSwapped := B.lowFirst, requests := 2 }
        let element (code : Nat) (e : Bytes) : Parse.Ses.StatusElement :=
          { cls := Spec.Ses.className code, attrs := Spec.Ses.common e, info := Spec.Ses.info r code e, general := Spec.Ses.general r code e }
        .status
          { attrs := Parse.Ses.statusAttrs B flags generation ((Spec.Ses.enclosureStatus flags generation ss).length - 4)
            descriptors := ss.map fun s => { overall := element 0 s.overall, individual := s.elements.map (element s.type.code.toNat) } }))
  | descriptors {g generation : Nat} {es : List Bytes} {ss : List Spec.Ses.TypeTexts} :
      t.diagnostic 7 = some (Spec.Ses.elementDescriptors generation ss) →
      Spec.Ses.IsConfiguration g es (ss.map (·.type)) → (B.sg = true → Spec.Ses.Small es (ss.map (·.type))) → (∀ s ∈ ss, s.Ok) →
      (∀ s ∈ ss, ∀ t ∈ s.overall :: s.elements, t.length < 2 ^ 16 ∧ (B.sg = true → t.length < 2 ^ 15)) →
      generation < 2 ^ 32 → (Spec.Ses.elementDescriptors generation ss).length ≤ 65535 →
      Tells B t (.ses (getSesPage 7) (some (configurationOf B g es (ss.map (·.type))))) (.learns (· = .descriptors
        { attrs := [("page_code", 7), ("page_length", asInt B.sg 2 ((Spec.Ses.elementDescriptors generation ss).length - 4)),
            ("generation_code", asInt B.sg 4 generation)]
          descriptors := ss.map fun s =>
            { overall := ⟨s.overall.length, s.overall⟩, individual := s.elements.map fun t => ⟨t.length, t⟩ } }))
  | noDiagnostic {p : Nat} {conf : Option Parse.Ses.Configuration} : p < 256 → t.diagnostic p = none → Tells B t (.ses (getSesPage p) conf) .refused
  | keys {n generation : Nat} {keys : List Nat} : n < 2 ^ 16 → t.reservations 0 = some (readKeys generation keys) → generation < 2 ^ 32 →
      (∀ k ∈ keys, k < 2 ^ 64) → 8 + 8 * keys.length ≤ n →
      Tells B t (.persistentReserveIn 0 n) (.learns fun x => ∃ r, x = .reservations (.keys r) ∧ r.keys = some keys ∧
        Parse.get r.attrs "pr_generation" = generation)
  /-- more keys than there is room for: none are passed on, but the length that is needed -/
  | manyKeys {n generation : Nat} {keys : List Nat} : 8 ≤ n → n < 2 ^ 16 → t.reservations 0 = some (readKeys generation keys) → generation < 2 ^ 32 →
      8 * keys.length < 2 ^ 32 → n < 8 + 8 * keys.length →
      Tells B t (.persistentReserveIn 0 n) (.learns fun x => ∃ r, x = .reservations (.keys r) ∧ r.keys = none ∧
        Parse.requiredLength r.attrs = (8 + 8 * keys.length : Nat))
  | reservation {n : Nat} {b : Bytes} : n < 2 ^ 16 → t.reservations 1 = some b → b.length = 24 → 24 ≤ n →
      Tells B t (.persistentReserveIn 1 n) (.learns (· = .reservations (.reservation (readReservation b))))
  | capabilities {n : Nat} {b : Bytes} : n < 2 ^ 16 → t.reservations 2 = some b → b.length = 8 → 8 ≤ n →
      Tells B t (.persistentReserveIn 2 n) (.learns (· = .reservations (.capabilities (reportCapabilities b))))
  | fullStatus {n generation : Nat} {ds : List Bytes} : n < 2 ^ 16 → t.reservations 3 = some (readFullStatus generation ds) → generation < 2 ^ 32 →
      (∀ d ∈ ds, IsFullStatus d) → ds ≠ [] → 8 + ds.flatten.length ≤ n →
      Tells B t (.persistentReserveIn 3 n) (.learns fun x => ∃ r, x = .reservations (.fullStatus r) ∧
        r.attrs = [("pr_generation", (generation : Int)), ("additional_length", (ds.flatten.length : Int))] ∧
        r.descriptors = some (ds.map fun d => { attrs := Spec.fullStatus d, transport := { attrs := transportId (d.drop 24), specificData := d.drop 25 } }))
  | noStatus {n generation : Nat} : 8 ≤ n → n < 2 ^ 16 → t.reservations 3 = some (readFullStatus generation []) → generation < 2 ^ 32 →
      Tells B t (.persistentReserveIn 3 n) (.learns fun x => ∃ r, x = .reservations (.fullStatus r) ∧ r.descriptors = none ∧
        Parse.get r.attrs "pr_generation" = generation)

/-! ## One command -/

/-- What a platform has to make of the answers of a device that sends no more than it is asked for: the data, and what `tail` says behind it, up to
the length asked for. -/
structure Passes (tail : Nat → Bytes → Bytes → Prop) (out : Req → Answer → Except (Exn (DevErr Sense)) (Option (Option Bytes))) : Prop where
  read : ∀ cdb n d, d ≠ [] → d.length ≤ n.toNat → ∃ rest : Bytes, rest.length + d.length ≤ n.toNat ∧ tail n.toNat d rest ∧
    out (.read cdb n) (good d) = .ok (some (some (d ++ rest)))
  ready : ∀ cdb, out (.read cdb 0) (good []) = .ok (some none)
  fails : ∀ c, RaisesSense (out c (failed 5 0x24 0)) 5 0x24 0

/-- Zeros up to the length asked for. -/
def Filled (n : Nat) (d rest : Bytes) : Prop := rest = zeros (n - d.length)

/-- Nothing. -/
def Exactly (_ : Nat) (_ rest : Bytes) : Prop := rest = []

theorem outcome_passes : Passes Filled (Platform.outcome getSense) where
  read cdb n d h0 hd := by
    have hn : 0 < n := by
      have : d.length ≠ 0 := fun h => h0 (List.length_eq_zero_iff.1 h)
      omega
    refine ⟨zeros (n.toNat - d.length), by simp; omega, rfl, ?_⟩
    simp [Platform.outcome, good, delivered, hn, padded, List.take_append, List.take_of_length_le hd, zeros, Nat.min_eq_left (Nat.sub_le _ _)]
  ready cdb := rfl
  fails c := outcome_delivers.fails c 5 0x24 0 (by decide) (by decide) (by decide)

theorem winOutcome_passes : Passes Exactly (Win32.winOutcome getSense) where
  read cdb n d h0 hd := by
    refine ⟨[], by simpa using hd, rfl, ?_⟩
    simp [Win32.winOutcome, good, List.take_of_length_le hd, h0]
  ready cdb := rfl
  fails c := winOutcome_delivers.fails c 5 0x24 0 (by decide) (by decide) (by decide)

section step

variable {t : Target} {tail : Nat → Bytes → Bytes → Prop} {out : Req → Answer → Except (Exn (DevErr Sense)) (Option (Option Bytes))} (L : Lib) (B : Parse.BufLib)
  (other : Bytes → Py (List (String × Int)))

/-- One command: the request can be built, the target stays as it is, the caller sees what is told. -/
def Reports (t : Target) (out : Req → Answer → Except (Exn (DevErr Sense)) (Option (Option Bytes))) (L : Lib) (B : Parse.BufLib)
    (other : Bytes → Py (List (String × Int))) (c : Cmd) (p : Told) : Prop :=
  ∃ q, (c.command L B other).request = .ok q ∧ (target t (asked q)).2 = t ∧ Sees (decoded (c.command L B other) (out q (target t (asked q)).1)) p

theorem target_task (c : Cdb.Cmd) (r : Req) (hc : InRange c) (h : Cdb.request L c = .ok r) :
    target t (asked r) = match report t (meaning c) with
      | some (b, n) => (good (b.take n), t)
      | none => (failed 5 0x24 0, t) := by
  have hd := Cdb.C29_decode L c r hc h
  have e1 : (asked r).cdb = r.cdb := by cases r <;> rfl
  have e2 : (asked r).toDevice = dataOut r := by cases r <;> rfl
  unfold target
  rw [e1, e2, hd]
  rfl

theorem reports_refused (hP : Passes tail out) (c : Cmd) (q : Req) (hi : InRange c.cdb) (hr : Cdb.request L c.cdb = .ok q)
    (hm : report t (meaning c.cdb) = none) : Reports t out L B other c .refused := by
  refine ⟨q, hr, ?_⟩
  rw [target_task L c.cdb q hi hr, hm]
  obtain ⟨raw, s, h, hs⟩ := hP.fails q
  refine ⟨rfl, raw, s, ?_, hs⟩
  simp only [h]
  rfl

/-- The data `d` arrives with something behind it. -/
theorem reports_read (hP : Passes tail out) (c : Cmd) (cdb b d : Bytes) (n : Nat) (p : Told) (hi : InRange c.cdb) (hr : Cdb.request L c.cdb = .ok (.read cdb n))
    (hm : report t (meaning c.cdb) = some (b, n)) (hb : b.take n = d) (h0 : d ≠ [])
    (hdec : ∀ rest : Bytes, rest.length + d.length ≤ n → tail n d rest → ∃ r, c.decode B other (some (d ++ rest)) = r ∧
      Sees (match r with | .ok x => .ok (some (.obj x)) | .error e => .error (.py e)) p) : Reports t out L B other c p := by
  refine ⟨_, hr, ?_⟩
  rw [target_task L c.cdb _ hi hr, hm]
  refine ⟨rfl, ?_⟩
  have hd : d.length ≤ (n : Int).toNat := by rw [← hb]; simp; omega
  obtain ⟨rest, hl, ht, h⟩ := hP.read cdb n d h0 hd
  simp only [hb, h]
  obtain ⟨r, h1, h2⟩ := hdec rest (by omega) ht
  have : (c.command L B other).decode (some (some (d ++ rest))) = r := h1
  simp only [decoded, this]
  cases r <;> exact h2

/-! ## The fields of a page are those of the page with something behind it -/

theorem peripheral_append (b rest : Bytes) (h : 1 ≤ b.length) : peripheral (b ++ rest) = peripheral b := by
  simp (disch := omega) only [peripheral, bitsAt, Parse.byteAt_append_left]

theorem vpdHeader_append (b rest : Bytes) (h : 4 ≤ b.length) : vpdHeader (b ++ rest) = vpdHeader b := by
  simp (disch := omega) only [vpdHeader, Parse.byteAt_append_left, Parse.num_append_left]

theorem vpdHeaderShort_append (b rest : Bytes) (h : 4 ≤ b.length) : vpdHeaderShort (b ++ rest) = vpdHeaderShort b := by
  simp (disch := omega) only [vpdHeaderShort, Parse.byteAt_append_left, Parse.num_append_left]

theorem blockLimits_append (b rest : Bytes) (h : 44 ≤ b.length) : blockLimits (b ++ rest) = blockLimits b := by
  simp (disch := omega) only [blockLimits, bitAt, Parse.byteAt_append_left, Parse.num_append_left]

theorem alignment_append (b rest : Bytes) (h : 44 ≤ b.length) : unmapGranularityAlignment (b ++ rest) = unmapGranularityAlignment b := by
  simp (disch := omega) only [unmapGranularityAlignment, Parse.num_append_left]

theorem veritas_append (b rest : Bytes) (h : 6 ≤ b.length) : Spec.veritas (b ++ rest) = Spec.veritas b := by
  simp (disch := omega) only [Spec.veritas, bitAt, Parse.byteAt_append_left, Parse.num_append_left]

theorem standard_append (b rest : Bytes) (h : 36 ≤ b.length) : Spec.standardInquiry (b ++ rest) = Spec.standardInquiry b := by
  simp (disch := omega) only [Spec.standardInquiry, bitAt, bitsAt, Parse.byteAt_append_left, Parse.num_append_left]

theorem ataHeader_append (sg : Bool) (b rest : Bytes) (h : 57 ≤ b.length) : ataHeader sg (b ++ rest) = ataHeader sg b := by
  simp (disch := omega) only [ataHeader, Parse.byteAt_append_left, Parse.num_append_left]

theorem signature_append (sg : Bool) (b rest : Bytes) (h : 14 ≤ b.length) : deviceSignature sg (b ++ rest) = deviceSignature sg b := by
  simp (disch := omega) only [deviceSignature, bitAt, bitsAt, Parse.byteAt_append_left, Parse.num_append_left]

theorem receiveCopy_append (b rest : Bytes) (h : 44 ≤ b.length) : Spec.receiveCopy (b ++ rest) = Spec.receiveCopy b := by
  simp (disch := omega) only [Spec.receiveCopy, bitAt, Parse.byteAt_append_left, Parse.num_append_left]

theorem prHeader_append (b rest : Bytes) (h : 8 ≤ b.length) : prHeader (b ++ rest) = prHeader b := by
  simp (disch := omega) only [prHeader, Parse.num_append_left]

theorem readReservation_append (b rest : Bytes) (h : 24 ≤ b.length) : readReservation (b ++ rest) = readReservation b := by
  simp (disch := omega) only [readReservation, bitsAt, Parse.byteAt_append_left, Parse.num_append_left]

theorem capabilities_append (b rest : Bytes) (h : 8 ≤ b.length) : reportCapabilities (b ++ rest) = reportCapabilities b := by
  simp (disch := omega) only [reportCapabilities, bitAt, bitsAt, Parse.byteAt_append_left, Parse.num_append_left]

theorem drop_take_append (b rest : Bytes) (k n : Nat) (h : k + n ≤ b.length) : ((b ++ rest).drop k).take n = (b.drop k).take n := by
  rw [List.drop_append_of_le_length (by omega), List.take_append_of_le_length (by simp; omega)]

theorem getD_append (b rest : Bytes) (i : Nat) (h : i < b.length) : (b ++ rest).getD i 0 = b.getD i 0 := by
  simp [List.getD_eq_getElem?_getD, List.getElem?_append_left h]

theorem wordText_append (b rest : Bytes) (f l : Nat) (h : 2 * l + 2 ≤ b.length) : wordText (b ++ rest) f l = wordText b f l := by
  unfold wordText
  simp only [List.flatMap]
  congr 1
  apply List.map_congr_left
  intro k hk
  rw [List.mem_range] at hk
  rw [getD_append _ _ _ (by omega), getD_append _ _ _ (by omega)]

theorem standardObject_append (b rest : Bytes) (h : 36 ≤ b.length) (hl : rest = [] ∨ byteAt b 4 + 5 ≤ b.length) :
    standardObject (b ++ rest) = standardObject b := by
  rcases hl with rfl | hl
  · rw [List.append_nil]
  have he : extendedPart (b ++ rest) = extendedPart b := by
    unfold extendedPart
    rw [Parse.byteAt_append_left _ _ _ (by omega), List.take_append_of_le_length hl]
  unfold standardObject
  rw [he, peripheral_append _ _ (by omega), standard_append _ _ h, drop_take_append _ _ _ _ (by omega), drop_take_append _ _ _ _ (by omega),
    drop_take_append _ _ _ _ (by omega), Parse.byteAt_append_left _ _ _ (by omega)]

theorem range_bytes (b rest : Bytes) (k : Nat) : (List.range (b.length - k)).map (fun j => byteAt (b ++ rest) (k + j)) = (b.drop k).map UInt8.toNat := by
  apply List.ext_getElem
  · simp
  · intro i h1 h2
    simp at h1
    simp only [List.getElem_map, List.getElem_range, List.getElem_drop]
    rw [Parse.byteAt_append_left _ _ _ (by omega)]
    simp [byteAt, List.getD_eq_getElem?_getD, List.getElem?_eq_getElem (show k + i < b.length by omega)]

theorem flatten_length (n : Nat) : ∀ l : List Bytes, (∀ e ∈ l, e.length = n) → l.flatten.length = n * l.length
  | [], _ => rfl
  | e :: es, h => by
    have := flatten_length n es fun x hx => h x (List.mem_cons_of_mem _ hx)
    rw [List.flatten_cons, List.length_append, this, h e List.mem_cons_self, List.length_cons, Nat.mul_succ, Nat.add_comm]

theorem reportLuns_length (reserved : Bytes) (entries : List Bytes) (h : reserved.length = 4) (he : ∀ e ∈ entries, e.length = 8) :
    (Spec.reportLuns reserved entries).length = 8 + 8 * entries.length := by
  simp only [Spec.reportLuns, List.length_append, be_length, h, flatten_length 8 entries he]

theorem keys_length (generation : Nat) : ∀ keys : List Nat, (readKeys generation keys).length = 8 + 8 * keys.length := by
  intro keys
  have : (keys.flatMap (be 8)).length = 8 * keys.length := by
    induction keys with
    | nil => rfl
    | cons k ks ih => rw [List.flatMap_cons, List.length_append, be_length, ih, List.length_cons, Nat.mul_succ, Nat.add_comm]
  simp only [readKeys, List.length_append, be_length, this]

theorem ne_nil_of_le {b : Bytes} (k : Nat) (h : k + 1 ≤ b.length) : b ≠ [] := by
  rintro rfl; simp at h

/-! ## All commands -/

theorem reports_learns (hP : Passes tail out) (c : Cmd) (cdb b d : Bytes) (n : Nat) (P : Result → Prop) (hi : InRange c.cdb)
    (hr : Cdb.request L c.cdb = .ok (.read cdb n)) (hm : report t (meaning c.cdb) = some (b, n)) (hb : b.take n = d) (h0 : d ≠ [])
    (hdec : ∀ rest : Bytes, rest.length + d.length ≤ n → tail n d rest → ∃ x, c.decode B other (some (d ++ rest)) = .ok x ∧ P x) :
    Reports t out L B other c (.learns P) := by
  refine reports_read L B other hP c cdb b d n _ hi hr hm hb h0 fun rest hl ht => ?_
  obtain ⟨x, h1, h2⟩ := hdec rest hl ht
  exact ⟨_, h1, x, rfl, h2⟩

theorem vpd_request (p : Nat) (hp : p < 256) (alloc : Nat) (ha : (getVpdPage p).args.2.1 = alloc) : InRange (Cmd.vpd (getVpdPage p)).cdb ∧
    meaning (Cmd.vpd (getVpdPage p)).cdb = .inquiry 1 p alloc ∧ ∃ cdb, Cdb.request L (Cmd.vpd (getVpdPage p)).cdb = .ok (.read cdb alloc) := by
  obtain ⟨al, h, h1, h2⟩ := vpd_args p
  have e : al = alloc := by rw [h] at ha; exact ha
  subst e
  have hf : Fits 8 (p : Int) := ⟨by omega, by omega⟩
  have ha : Fits 16 (alloc : Int) := ⟨by omega, h2⟩
  simp only [Cmd.cdb, h, InRange, meaning, Cdb.request]
  exact ⟨⟨by simp [Fits], hf, ha⟩, by simp, _, Cdb.C36_inquiry L 1 p alloc (by simp [Fits]) hf ha⟩

theorem reports_vpd (hP : Passes tail out) (p : Nat) (hp : p < 256) (alloc : Nat) (ha : (getVpdPage p).args.2.1 = alloc) (b : Bytes) (hb : t.vpd p = some b)
    (h0 : b ≠ []) (hl : b.length ≤ alloc) (P : Result → Prop)
    (hdec : ∀ rest, tail alloc b rest → ∃ x, unpackVpd B (b ++ rest) (getVpdPageData p) = .ok x ∧ P x) : Reports t out L B other (.vpd (getVpdPage p)) (.learns P) := by
  obtain ⟨hi, hm, cdb, hr⟩ := vpd_request L p hp alloc ha
  refine reports_learns L B other hP _ cdb b b alloc P hi hr ?_ (List.take_of_length_le hl) h0 fun rest _ htl => ?_
  · rw [hm]; simp [report, hb]
  · have := (C50_vpd L B other p).2.2 (b ++ rest)
    simp only [Cmd.command, Option.getD_some] at this
    rw [this]; exact hdec rest htl

theorem ses_request (p : Nat) (hp : p < 256) (alloc : Nat) (ha : (getSesPage p).args.2.1 = alloc) (conf : Option Parse.Ses.Configuration) :
    InRange (Cmd.ses (getSesPage p) conf).cdb ∧ meaning (Cmd.ses (getSesPage p) conf).cdb = .receiveDiagnosticResults 1 p alloc ∧
    ∃ cdb, Cdb.request L (Cmd.ses (getSesPage p) conf).cdb = .ok (.read cdb alloc) := by
  obtain ⟨al, h, h1, h2⟩ := ses_args p
  have e : al = alloc := by rw [h] at ha; exact ha
  subst e
  have hf : Fits 8 (p : Int) := ⟨by omega, by omega⟩
  have ha : Fits 16 (alloc : Int) := ⟨by omega, h2⟩
  simp only [Cmd.cdb, h, InRange, meaning, Cdb.request]
  exact ⟨⟨by simp [Fits], hf, ha⟩, by simp, _, Cdb.C36_receive_diagnostic L 1 p alloc (by simp [Fits]) hf ha⟩

theorem reports_ses (hP : Passes tail out) (p : Nat) (hp : p < 256) (conf : Option Parse.Ses.Configuration) (alloc : Nat)
    (ha : (getSesPage p).args.2.1 = alloc) (b : Bytes) (hb : t.diagnostic p = some b)
    (h0 : b ≠ []) (hl : b.length ≤ alloc) (P : Result → Prop)
    (hdec : ∀ rest, tail alloc b rest → ∃ x, unpackSes B other conf (b ++ rest) (getSesPageData p) = .ok x ∧ P x) :
    Reports t out L B other (.ses (getSesPage p) conf) (.learns P) := by
  obtain ⟨hi, hm, cdb, hr⟩ := ses_request L p hp alloc ha conf
  refine reports_learns L B other hP _ cdb b b alloc P hi hr ?_ (List.take_of_length_le hl) h0 fun rest _ htl => ?_
  · rw [hm]; simp [report, hb]
  · have := (C50_ses L B other p conf).2.2 (b ++ rest)
    simp only [Cmd.command, Option.getD_some] at this
    rw [this]; exact hdec rest htl

theorem reports_prin (hP : Passes tail out) (sa n : Nat) (hs : sa < 32) (h8 : 8 ≤ n) (hn : n < 2 ^ 16) (b d : Bytes) (hb : t.reservations sa = some b)
    (hd : b.take n = d) (h0 : d ≠ []) (P : Result → Prop)
    (hdec : ∀ rest : Bytes, rest.length + d.length ≤ n → tail n d rest → ∃ x, Parse.prin B.sg sa (d ++ rest) = .ok x ∧ P (.reservations x)) :
    Reports t out L B other (.persistentReserveIn sa n) (.learns P) := by
  refine reports_learns L B other hP _ _ b d n P ⟨⟨by omega, by omega⟩, ⟨by omega, by omega⟩⟩
    (Cdb.C36_persistent_reserve_in L sa n ⟨by omega, by omega⟩ ⟨by omega, by omega⟩ (by omega)) ?_ hd h0 fun rest hl htl => ?_
  · simp [Cmd.cdb, meaning, report, hb]
  · obtain ⟨x, h1, h2⟩ := hdec rest hl htl
    refine ⟨_, ?_, h2⟩
    simp only [Cmd.decode, withData, h1, Except.map]

theorem reports (hP : Passes tail out) {c : Cmd} {p : Told} (h : Tells B t c p) : Reports t out L B other c p := by
  cases h with
  | ready =>
    refine ⟨_, Cdb.C36_test_unit_ready L, ?_⟩
    rw [target_task L .testUnitReady _ trivial (Cdb.C36_test_unit_ready L)]
    refine ⟨rfl, ?_⟩
    simp only [meaning, report, List.take_nil, hP.ready]
    exact ⟨_, rfl, rfl⟩
  | @standard n h1 h2 h3 h4 h5 =>
    have hlen : 36 ≤ (t.standard.take n).length := by simp; omega
    refine reports_learns L B other hP _ _ t.standard (t.standard.take n) n _ ⟨by simp [Fits], by simp [Fits], by omega, by omega⟩
      (Cdb.C36_inquiry L 0 0 n (by simp [Fits]) (by simp [Fits]) ⟨by omega, by omega⟩) (by simp [Cmd.cdb, meaning, report]) rfl
      (ne_nil_of_le 35 hlen) fun rest hr _ => ⟨_, ?_, rfl⟩
    have ht : ∀ k m, k + m ≤ 36 → ((t.standard.take n).drop k).take m = (t.standard.drop k).take m := by
      intro k m hk
      rw [List.drop_take, List.take_take, Nat.min_eq_left (by omega)]
    have hb4 : byteAt (t.standard.take n) 4 = byteAt t.standard 4 := by
      simp [byteAt, List.getD_eq_getElem?_getD, List.getElem?_take_of_lt (show 4 < n by omega)]
    have hd : rest = [] ∨ byteAt (t.standard.take n) 4 + 5 ≤ (t.standard.take n).length := by
      by_cases hc : t.standard.length ≤ n
      · right; rw [hb4, List.take_of_length_le hc]; exact h4
      · left; apply List.length_eq_zero_iff.1
        simp at hr; omega
    have := Parse.C45_unpack B (t.standard.take n ++ rest) (by rw [List.length_append]; omega)
      (by rw [drop_take_append _ _ _ _ (by omega), ht 8 28 (by omega)]; exact h5)
    simp only [Cmd.decode, withData]
    rw [this]
    show Except.ok (Result.standard (standardObject (t.standard.take n ++ rest))) = _
    rw [standardObject_append _ _ hlen hd]
  | @supported b h1 h2 h3 h4 =>
    refine reports_vpd L B other hP 0 (by decide) 252 rfl b h1 (ne_nil_of_le 3 h2) h4 _ fun rest _ => ⟨_, ?_, rfl⟩
    show (Parse.supportedPages B (b ++ rest)).map Result.bytes = _
    rw [Parse.C44_supported B _ (by simp; omega) (by rw [Parse.byteAt_append_left _ _ _ (by omega)]; simp; omega),
      peripheral_append _ _ (by omega), vpdHeaderShort_append _ _ h2, Parse.byteAt_append_left _ _ _ (by omega),
      show byteAt b 3 = b.length - 4 by omega, range_bytes]
    rfl
  | @serial b h1 h2 h3 h4 h5 =>
    refine reports_vpd L B other hP 0x80 (by decide) 252 rfl b h1 (ne_nil_of_le 3 h2) h4 _ fun rest _ => ⟨_, ?_, rfl⟩
    have hd : ((b ++ rest).drop 4).take (byteAt (b ++ rest) 3) = b.drop 4 := by
      rw [Parse.byteAt_append_left _ _ _ (by omega), drop_take_append _ _ _ _ (by omega), List.take_of_length_le (by simp; omega)]
    show (Parse.unitSerial B (b ++ rest)).map Result.serial = _
    rw [Parse.C44_serial B _ (by simp; omega) (by rw [hd]; exact h5), hd, peripheral_append _ _ (by omega), vpdHeaderShort_append _ _ h2]
    rfl
  | @identification first ds h1 h2 h3 h4 =>
    have hl : (Spec.deviceIdentification first ds).length = 4 + ds.flatten.length := by simp [Spec.deviceIdentification]; omega
    refine reports_vpd L B other hP 0x83 (by decide) 252 rfl _ h1 (ne_nil_of_le 3 (by omega)) (by omega) _ fun rest _ => ⟨_, ?_, rfl⟩
    show (Parse.deviceIdentification B (_ ++ rest)).map Result.designators = _
    rw [Parse.C43_decodes B first ds rest h2 h3 (by omega)]
    rfl
  | @ata b h1 h2 h3 h4 h5 h6 h7 =>
    refine reports_vpd L B other hP 0x89 (by decide) 1024 rfl _ h1 (ne_nil_of_le 3 (by omega)) (by omega) _ fun rest _ => ⟨_, ?_, rfl⟩
    have hw : ∀ f l, 2 * l + 2 ≤ 512 → wordText ((b ++ rest).drop 60) f l = wordText (b.drop 60) f l := by
      intro f l hl
      rw [List.drop_append_of_le_length (by omega), wordText_append _ _ _ _ (by simp; omega)]
    have hlba : ([40, 41, 42, 44, 45, 46].map fun i => (b ++ rest).getD i 0) = [40, 41, 42, 44, 45, 46].map fun i => b.getD i 0 := by
      simp (disch := omega) only [List.map_cons, List.map_nil, getD_append]
    show (Parse.ataInformation B (b ++ rest)).map Result.ata = _
    rw [Parse.C47_page_partial B _ (by simp; omega) (by rw [drop_take_append _ _ _ _ (by omega)]; exact h3) (by rw [hlba]; exact h4)
      (by rw [hw _ _ (by omega)]; exact h5) (by rw [hw _ _ (by omega)]; exact h6) (by rw [hw _ _ (by omega)]; exact h7), hlba, hw _ _ (by omega),
      hw _ _ (by omega), hw _ _ (by omega), peripheral_append _ _ (by omega), ataHeader_append _ _ _ (by omega), drop_take_append _ _ _ _ (by omega),
      drop_take_append _ _ _ _ (by omega), drop_take_append _ _ _ _ (by omega), List.drop_append_of_le_length (by omega),
      signature_append _ _ _ (by simp; omega)]
    rfl
  | @limits b h1 h2 h3 =>
    refine reports_vpd L B other hP 0xb0 (by decide) 252 rfl _ h1 (ne_nil_of_le 3 (by omega)) (by omega) _ fun rest _ => ?_
    obtain ⟨a, h4, h5⟩ := Parse.C44_block_limits B (b ++ rest) (by simp; omega)
    refine ⟨_, ?_, a, rfl, ?_⟩
    · show (Parse.blockLimits B (b ++ rest)).map Result.page = _
      rw [h4, peripheral_append _ _ (by omega), blockLimits_append _ _ h2]
      rfl
    · rw [alignment_append _ _ h2] at h5; exact h5
  | @provisioning b d h1 h2 h3 h4 h5 h6 =>
    refine reports_vpd L B other hP 0xb2 (by decide) 252 rfl _ h1 (ne_nil_of_le 3 (by simp; omega)) (by simp; omega) _ fun rest _ => ⟨_, ?_, rfl⟩
    show (Parse.provisioning B (b ++ d ++ rest)).map Result.provisioning = _
    rw [Parse.C44_provisioning_group B b d rest h2 h4 h5 h6]
    rfl
  | @veritas b h1 h2 h3 =>
    refine reports_vpd L B other hP 0xc0 (by decide) 252 rfl _ h1 (ne_nil_of_le 3 (by omega)) (by omega) _ fun rest _ => ⟨_, ?_, rfl⟩
    show (Parse.veritas B (b ++ rest)).map Result.page = _
    rw [Parse.C44_veritas B _ (by simp; omega), peripheral_append _ _ (by omega), veritas_append _ _ h2]
    rfl
  | @otherPage p b hp hs h1 h2 h3 h4 =>
    have hc := (C50_vpd_classes p).2.2.2.2.2.2.2 (by
      simp only [List.mem_cons, List.not_mem_nil, or_false] at hs
      simp only [SpecialVpd]
      omega)
    refine reports_vpd L B other hP p hp 2048 (by rw [hc.1]; rfl) _ h1 (ne_nil_of_le 3 (by omega)) (by omega) _ fun rest _ => ⟨_, ?_, rfl⟩
    rw [hc.2]
    show (Parse.unknownPage B (b ++ rest)).map Result.bytes = _
    rw [Parse.C44_unknown B _ (by simp; omega), peripheral_append _ _ (by omega), vpdHeader_append _ _ h2, Parse.num_append_left _ _ _ _ (by omega),
      drop_take_append _ _ _ _ (by omega), List.take_of_length_le (by simp; omega)]
    rfl
  | @noPage p hp h1 =>
    obtain ⟨alloc, ha, hge, -⟩ := vpd_args p
    obtain ⟨hi, hm, cdb, hr⟩ := vpd_request L p hp alloc.toNat (by rw [ha]; simp; omega)
    exact reports_refused L B other hP _ _ hi hr (by rw [hm]; simp [report, h1])
  | @luns select n allow reserved luns h1 h2 h3 h4 h5 h6 h7 =>
    have hl : (Spec.reportLuns reserved (luns.map simpleLun)).length = 8 + 8 * luns.length := by
      rw [reportLuns_length _ _ h5 (by simp [simpleLun]), List.length_map]
    refine reports_learns L B other hP _ _ _ _ n _ ⟨⟨by omega, by omega⟩, ⟨by omega, by omega⟩⟩
      (Cdb.C36_report_luns L select n ⟨by omega, by omega⟩ ⟨by omega, by omega⟩) (by simp [Cmd.cdb, meaning, report, h4]; rfl)
      (List.take_of_length_le (by omega)) (ne_nil_of_le 3 (by omega)) fun rest _ _ => ?_
    obtain ⟨d, h8, h9, -⟩ := Parse.C38_decodes n allow reserved rest luns (by omega) h5 h6 (by omega)
    refine ⟨_, ?_, d, rfl, h9⟩
    simp only [Cmd.decode, h8]
    rfl
  | @manyLuns select n allow reserved entries h1 h2 h3 h4 h5 h6 h7 h8 =>
    have hl := reportLuns_length reserved entries h5 h6
    have hf := flatten_length 8 entries h6
    have ht : (Spec.reportLuns reserved entries).take n = be 4 (8 * entries.length) ++ reserved ++ entries.flatten.take (n - 8) := by
      rw [Spec.reportLuns, List.take_append, List.take_of_length_le (by simp; omega)]
      simp [h5]
    refine reports_read L B other hP _ _ _ _ n _ ⟨⟨by omega, by omega⟩, ⟨by omega, by omega⟩⟩
      (Cdb.C36_report_luns L select n ⟨by omega, by omega⟩ ⟨by omega, by omega⟩) (by simp [Cmd.cdb, meaning, report, h4])
      ht (ne_nil_of_le 3 (by simp)) fun rest hr _ => ⟨.error .truncated, ?_, rfl⟩
    have h0 : rest = [] := by
      apply List.length_eq_zero_iff.1
      simp [h5] at hr
      rw [← List.length_flatten, hf] at hr
      omega
    rw [h0, List.append_nil]
    simp only [Cmd.decode]
    rw [Parse.C38_incomplete n allow reserved _ (8 * entries.length) (by omega) h5 h7 (by simp [hf]; omega)]
    rfl
  | @groups n groups h1 h2 h3 h4 h5 h6 =>
    have hl : (rtpgLengthOnly groups).length = 4 + groups.flatten.length := by simp only [rtpgLengthOnly, List.length_append, be_length]
    refine reports_learns L B other hP _ _ _ _ n _ ⟨by simp [Fits], ⟨by omega, by omega⟩⟩
      (Cdb.C36_rtpg L 0 n (.inl rfl) ⟨by omega, by omega⟩) (by simp [Cmd.cdb, meaning, report, h2]; rfl)
      (List.take_of_length_le (by omega)) (ne_nil_of_le 3 (by omega)) fun rest _ _ => ⟨_, ?_, rfl⟩
    simp only [Cmd.decode, withData, Parse.C39_length_only B.sg groups rest h3 h4 h5]
    rfl
  | @copy n b h1 h2 h3 h4 h5 =>
    refine reports_learns L B other hP _ _ _ _ n _ ⟨⟨by omega, by omega⟩, by simp [Fits]⟩
      (Cdb.C36_receive_copy L n 0 ⟨by omega, by omega⟩ (by simp [Fits])) (by simp [Cmd.cdb, meaning, report, h2]; rfl)
      (List.take_of_length_le (by omega)) (ne_nil_of_le 3 (by omega)) fun rest _ _ => ⟨_, ?_, rfl⟩
    simp only [Cmd.decode, withData]
    rw [Parse.C56_receive_copy B.sg (b ++ rest) (by rw [Parse.byteAt_append_left _ _ _ (by omega)]; simp; omega), receiveCopy_append _ _ h3,
      Parse.byteAt_append_left _ _ _ (by omega), show byteAt b 43 = b.length - 44 by omega, range_bytes]
    rfl
  | @configuration generation es ts h1 h2 h3 h4 =>
    refine reports_ses L B other hP 1 (by decide) none 65535 rfl _ h1 (ne_nil_of_le 3 (by simp [Spec.Ses.configuration])) h4 _ fun rest _ => ⟨_, ?_, rfl⟩
    show (Parse.Ses.configuration B (_ ++ rest)).map Result.configuration = _
    rw [Parse.Ses.C46_configuration B generation es ts rest h2 h3]
    rfl
  | @status g generation es ss flags h1 h2 h3 h4 h5 h6 =>
    refine reports_ses L B other hP 2 (by decide) _ 65535 rfl _ h1 (ne_nil_of_le 3 (by simp [Spec.Ses.enclosureStatus])) h6 _ fun rest _ => ⟨_, ?_, rfl⟩
    obtain ⟨conf, e1, e2⟩ := Parse.Ses.C46_status B g es ss flags generation [] rest h2 h3 h4 h5 (by omega)
    rw [Parse.Ses.C46_configuration B g es _ [] h2 h3] at e1
    cases e1
    show (Parse.Ses.enclosureStatus B (configurationOf B g es (ss.map (·.type))) (_ ++ rest)).map Result.status = _
    exact congrArg (Except.map Result.status) e2
  | @descriptors g generation es ss h1 h2 h3 h4 h5 h6 h7 =>
    refine reports_ses L B other hP 7 (by decide) _ 65535 rfl _ h1 (ne_nil_of_le 3 (by simp [Spec.Ses.elementDescriptors])) h7 _ fun rest _ => ⟨_, ?_, rfl⟩
    obtain ⟨conf, e1, e2⟩ := Parse.Ses.C46_descriptors B g es ss generation [] rest h2 h3 h4 h5 h6 (by omega)
    rw [Parse.Ses.C46_configuration B g es _ [] h2 h3] at e1
    cases e1
    show (Parse.Ses.elementDescriptors B (configurationOf B g es (ss.map (·.type))) (_ ++ rest)).map Result.descriptors = _
    exact congrArg (Except.map Result.descriptors) e2
  | @noDiagnostic p conf hp h1 =>
    obtain ⟨alloc, ha, hge, -⟩ := ses_args p
    obtain ⟨hi, hm, cdb, hr⟩ := ses_request L p hp alloc.toNat (by rw [ha]; simp; omega) conf
    exact reports_refused L B other hP _ _ hi hr (by rw [hm]; simp [report, h1])
  | @keys n generation keys h1 h2 h3 h4 h5 =>
    have hl := keys_length generation keys
    refine reports_prin L B other hP 0 n (by decide) (by omega) h1 _ _ h2 (List.take_of_length_le (by omega)) (ne_nil_of_le 3 (by omega)) _
      fun rest _ _ => ?_
    obtain ⟨r, e1, e2, e3, -⟩ := Parse.C35_read_keys B.sg generation keys rest h3 h4 (by omega)
    exact ⟨_, e1, r, rfl, e2, e3⟩
  | @manyKeys n generation keys h1 h2 h3 h4 h5 h6 =>
    have hl := keys_length generation keys
    have htl : ((readKeys generation keys).take n).length = n := by simp; omega
    refine reports_prin L B other hP 0 n (by decide) (by omega) h2 _ _ h3 rfl (ne_nil_of_le 3 (by omega)) _
      fun rest hr _ => ?_
    have h0 : rest = [] := by
      apply List.length_eq_zero_iff.1
      omega
    have hn4 : num ((readKeys generation keys).take n) 4 4 = 8 * keys.length := by
      have e1 : num (readKeys generation keys) 4 4 = 8 * keys.length := by
        have := Parse.num_append_right (be 4 generation) (be 4 (8 * keys.length) ++ keys.flatMap (be 8)) 0 4
        rw [Parse.num_be _ _ _ (by omega)] at this
        rw [readKeys, List.append_assoc]; simpa using this
      rw [← e1]
      conv => rhs; rw [← List.take_append_drop n (readKeys generation keys)]
      rw [Parse.num_append_left _ _ _ _ (by omega)]
    obtain ⟨e1, e2⟩ := Parse.C35_read_keys_incomplete B.sg ((readKeys generation keys).take n ++ rest) (by simp; omega)
      (by rw [h0, List.append_nil, hn4, htl]; omega)
    refine ⟨_, e1, _, rfl, rfl, ?_⟩
    rw [e2, h0, List.append_nil, hn4]
    omega
  | @reservation n b h1 h2 h3 h4 =>
    refine reports_prin L B other hP 1 n (by decide) (by omega) h1 _ _ h2 (List.take_of_length_le (by omega)) (ne_nil_of_le 3 (by omega)) _
      fun rest _ _ => ⟨_, Parse.C35_read_reservation B.sg (b ++ rest) (by simp; omega), ?_⟩
    rw [readReservation_append _ _ (by omega)]
  | @capabilities n b h1 h2 h3 h4 =>
    refine reports_prin L B other hP 2 n (by decide) (by omega) h1 _ _ h2 (List.take_of_length_le (by omega)) (ne_nil_of_le 3 (by omega)) _
      fun rest _ _ => ⟨_, Parse.C35_report_capabilities B.sg (b ++ rest) (by simp; omega), ?_⟩
    rw [capabilities_append _ _ (by omega)]
  | @fullStatus n generation ds h1 h2 h3 h4 h5 h6 =>
    have hl : (readFullStatus generation ds).length = 8 + ds.flatten.length := by simp only [readFullStatus, List.length_append, be_length]
    refine reports_prin L B other hP 3 n (by decide) (by omega) h1 _ _ h2 (List.take_of_length_le (by omega)) (ne_nil_of_le 3 (by omega)) _
      fun rest _ _ => ?_
    obtain ⟨r, e1, e2, e3⟩ := Parse.C35_read_full_status B.sg generation ds rest h3 h4 h5 (by omega)
    exact ⟨_, e1, r, rfl, e3, e2⟩
  | @noStatus n generation h1 h2 h3 h4 =>
    have hl : (readFullStatus generation []).length = 8 := by simp [readFullStatus]
    refine reports_prin L B other hP 3 n (by decide) (by omega) h2 _ _ h3 (List.take_of_length_le (by omega)) (ne_nil_of_le 3 (by omega)) _
      fun rest _ _ => ⟨_, Parse.C35_no_status B.sg (_ ++ rest) (by simp; omega) ?_, _, rfl, rfl, ?_⟩
    · rw [Parse.num_append_left _ _ _ _ (by omega)]
      have := Parse.num_append_right (be 4 generation) (be 4 0) 0 4
      rw [num_be0 4 0 (by decide)] at this
      simpa [readFullStatus] using this
    · rw [prHeader_append _ _ (by omega)]
      have := Parse.num_be 4 generation (be 4 0) (by omega)
      simp [prHeader, Parse.get, List.lookup, readFullStatus, this]

/-- What callers learn where the data arrives as the target sent it: also the pages whose end only the length of the response can tell. -/
inductive TellsExactly (B : Parse.BufLib) (t : Target) : Cmd → Told → Prop
  | same {c : Cmd} {p : Told} : Tells B t c p → TellsExactly B t c p
  /-- a logical block provisioning page without PROVISIONING GROUP DESCRIPTOR -/
  | noGroup {b : Bytes} : t.vpd 0xb2 = some b → b.length = 8 →
      TellsExactly B t (.vpd (getVpdPage 0xb2)) (.learns (· = .provisioning (⟨peripheral b, Spec.provisioning b⟩, none)))
  /-- no reservation held: the generation only -/
  | noReservation {n generation : Nat} : 8 ≤ n → n < 2 ^ 16 → generation < 2 ^ 32 → t.reservations 1 = some (be 4 generation ++ be 4 0) →
      TellsExactly B t (.persistentReserveIn 1 n)
        (.learns (· = .reservations (.reservation [("pr_generation", (generation : Int)), ("additional_length", 0)])))
  | diagnosticPages {p : Nat} {b : Bytes} : p = 0x00 ∨ p = 0x80 → t.diagnostic p = some b → 4 ≤ b.length → b.length ≤ 255 →
      TellsExactly B t (.ses (getSesPage p) none) (.learns (· = .diagnosticBytes
        ([("page_code", asInt B.sg 1 (byteAt b 0)), ("page_length", asInt B.sg 2 (num b 2 2))], (b.drop 4).map UInt8.toNat)))

/-- What callers learn where the data is filled up with zeros to the length asked for. -/
inductive TellsFilled (B : Parse.BufLib) (t : Target) : Cmd → Told → Prop
  | same {c : Cmd} {p : Told} : Tells B t c p → TellsFilled B t c p
  /-- a descriptor that the target did not send -/
  | noGroup {b : Bytes} : t.vpd 0xb2 = some b → b.length = 8 →
      TellsFilled B t (.vpd (getVpdPage 0xb2)) (.learns (· = .provisioning (⟨peripheral b, Spec.provisioning b⟩, some (designatorOf B (zeros 4)))))
  /-- a reservation of key 0 and type 0 that nobody holds -/
  | noReservation {n generation : Nat} : 24 ≤ n → n < 2 ^ 16 → generation < 2 ^ 32 → t.reservations 1 = some (be 4 generation ++ be 4 0) →
      TellsFilled B t (.persistentReserveIn 1 n)
        (.learns (· = .reservations (.reservation [("pr_generation", (generation : Int)), ("additional_length", 0), ("reservation_key", 0), ("obsolete_1", 0),
          ("reserved_1", 0), ("pr_type", 0), ("scope", 0), ("obsolete_2", 0)])))
  /-- 251 entries, whatever the length of the page -/
  | diagnosticPages {p : Nat} {b : Bytes} : p = 0x00 ∨ p = 0x80 → t.diagnostic p = some b → 4 ≤ b.length → b.length ≤ 255 →
      TellsFilled B t (.ses (getSesPage p) none) (.learns (· = .diagnosticBytes
        ([("page_code", asInt B.sg 1 (byteAt b 0)), ("page_length", asInt B.sg 2 (num b 2 2))],
          (b.drop 4).map UInt8.toNat ++ List.replicate (255 - b.length) 0)))

theorem reports_diagnostic (hP : Passes tail out) (p : Nat) (hp : p = 0x00 ∨ p = 0x80) (b : Bytes) (h1 : t.diagnostic p = some b) (h2 : 4 ≤ b.length)
    (h3 : b.length ≤ 255) (extra : Bytes) (he : ∀ rest, tail 255 b rest → rest = extra) :
    Reports t out L B other (.ses (getSesPage p) none) (.learns (· = .diagnosticBytes
        ([("page_code", asInt B.sg 1 (byteAt b 0)), ("page_length", asInt B.sg 2 (num b 2 2))], ((b ++ extra).drop 4).map UInt8.toNat))) := by
  have ha : (getSesPage p).args.2.1 = (255 : Nat) := by rcases hp with rfl | rfl <;> rfl
  have hd : ∀ b, unpackSes B other none b (getSesPageData p) = (Parse.Ses.bytesPage B b).map .diagnosticBytes := by
    intro b; rcases hp with rfl | rfl <;> rfl
  refine reports_ses L B other hP p (by omega) none 255 ha b h1 (ne_nil_of_le 3 h2) h3 _ fun rest hr => ⟨_, ?_, rfl⟩
  rw [he rest hr, hd, Parse.Ses.C58_bytes_partial B _ (by simp; omega), Parse.byteAt_append_left _ _ _ (by omega), Parse.num_append_left _ _ _ _ (by omega)]
  rfl

theorem no_reservation_length (generation : Nat) : (be 4 generation ++ be 4 0).length = 8 := by simp

theorem no_reservation_header (generation : Nat) (h : generation < 2 ^ 32) :
    prHeader (be 4 generation ++ be 4 0) = [("pr_generation", (generation : Int)), ("additional_length", 0)] := by
  have e1 := Parse.num_be 4 generation (be 4 0) (by omega)
  have e2 := Parse.num_append_right (be 4 generation) (be 4 0) 0 4
  rw [num_be0 4 0 (by decide), be_length, Nat.add_zero] at e2
  simp [prHeader, e1, e2]

theorem reports_exactly (hP : Passes Exactly out) {c : Cmd} {p : Told} (h : TellsExactly B t c p) : Reports t out L B other c p := by
  cases h with
  | same h => exact reports L B other hP h
  | @noGroup b h1 h2 =>
    refine reports_vpd L B other hP 0xb2 (by decide) 252 rfl _ h1 (ne_nil_of_le 3 (by omega)) (by omega) _ fun rest hr => ⟨_, ?_, rfl⟩
    rw [show rest = [] from hr, List.append_nil]
    show (Parse.provisioning B b).map Result.provisioning = _
    rw [Parse.C44_provisioning B b h2]
    rfl
  | @noReservation n generation h1 h2 h3 h4 =>
    have hl := no_reservation_length generation
    refine reports_prin L B other hP 1 n (by decide) h1 h2 _ _ h4 (List.take_of_length_le (by omega)) (ne_nil_of_le 3 (by omega)) _
      fun rest _ hr => ?_
    rw [show rest = [] from hr, List.append_nil]
    refine ⟨_, Parse.C35_no_reservation B.sg _ (by omega) (by omega), ?_⟩
    rw [no_reservation_header _ h3]
  | @diagnosticPages p b h1 h2 h3 h4 =>
    have := reports_diagnostic L B other hP p h1 b h2 h3 h4 [] fun _ h => h
    rwa [List.append_nil] at this

theorem reports_filled (hP : Passes Filled out) {c : Cmd} {p : Told} (h : TellsFilled B t c p) : Reports t out L B other c p := by
  cases h with
  | same h => exact reports L B other hP h
  | @noGroup b h1 h2 =>
    refine reports_vpd L B other hP 0xb2 (by decide) 252 rfl _ h1 (ne_nil_of_le 3 (by omega)) (by omega) _ fun rest hr => ⟨_, ?_, rfl⟩
    rw [show rest = zeros 4 ++ zeros 240 by rw [show rest = zeros (252 - b.length) from hr, h2]; rfl, ← List.append_assoc]
    show (Parse.provisioning B (b ++ zeros 4 ++ zeros 240)).map Result.provisioning = _
    rw [Parse.C44_provisioning_group B b (zeros 4) (zeros 240) h2 (by decide) (by decide) (.inr (by decide))]
    rfl
  | @noReservation n generation h1 h2 h3 h4 =>
    have hl := no_reservation_length generation
    refine reports_prin L B other hP 1 n (by decide) (by omega) h2 _ _ h4 (List.take_of_length_le (by omega)) (ne_nil_of_le 3 (by omega)) _
      fun rest _ hr => ⟨_, Parse.C35_read_reservation B.sg _ (by rw [show rest = zeros _ from hr]; simp; omega), ?_⟩
    have hz : rest = zeros 16 ++ zeros (n - 24) := by
      rw [show rest = zeros _ from hr, hl]
      simp only [zeros, List.replicate_append_replicate]
      congr 1; omega
    have h0 := no_reservation_header generation h3
    rw [hz, ← List.append_assoc, readReservation_append _ _ (by rw [List.length_append, hl]; simp)]
    simp only [prHeader, List.cons.injEq, Prod.mk.injEq, true_and, and_true] at h0
    have hb : ∀ i, byteAt (be 4 generation ++ be 4 0 ++ zeros 16) (8 + i) = 0 := by
      intro i
      have : byteAt (be 4 generation ++ be 4 0 ++ zeros 16) (8 + i) = byteAt (zeros 16) i := by
        rw [byteAt, byteAt, List.getD_eq_getElem?_getD, List.getD_eq_getElem?_getD, List.getElem?_append_right (by omega), hl, Nat.add_sub_cancel_left]
      rw [this]
      simp only [byteAt, zeros, List.getD_eq_getElem?_getD, List.getElem?_replicate]
      split <;> rfl
    have hn : ∀ k i, num (be 4 generation ++ be 4 0 ++ zeros 16) (8 + i) k = 0 := by
      intro k
      induction k with
      | zero => intro i; rfl
      | succ k ih => intro i; simp only [num, ih, Nat.add_assoc, hb]
    simp only [readReservation, bitsAt, Parse.num_append_left _ _ 0 4 (by omega : 0 + 4 ≤ (be 4 generation ++ be 4 0).length),
      Parse.num_append_left _ _ 4 4 (by omega : 4 + 4 ≤ (be 4 generation ++ be 4 0).length), h0.1, h0.2, hn 8 0, hn 4 8, hn 2 14, hb 12, hb 13]
    rfl
  | @diagnosticPages p b h1 h2 h3 h4 =>
    have := reports_diagnostic L B other hP p h1 b h2 h3 h4 (zeros (255 - b.length)) fun _ h => h
    rwa [List.drop_append_of_le_length h3, List.map_append, show (zeros (255 - b.length)).map UInt8.toNat = List.replicate (255 - b.length) 0 by
      simp [zeros]] at this

/-- A sequence of commands given to the target directly. -/
theorem askAll_target {R : Cmd → Told → Prop} (hR : ∀ c p, R c p → Reports t out L B other c p) {cmds : List Cmd} {ps : List Told} (h : Each R cmds ps) :
    Each Sees (askAll target out (cmds.map (·.command L B other)) t).1 ps ∧ (askAll target out (cmds.map (·.command L B other)) t).2 = t := by
  induction h with
  | nil => exact ⟨.nil, rfl⟩
  | @cons c p cs ps h _ ih =>
    obtain ⟨q, hq, hm, hs⟩ := hR c p h
    simp only [List.map_cons, askAll, hq]
    rw [hm]
    exact ⟨.cons hs ih.1, ih.2⟩

end step

theorem target_parses : ∀ t q, (target t q).1.status ≠ 0 → ∃ sn, getSense (padded 255 (target t q).1.sense) = .ok sn := by
  intro t q h
  have : (target t q).1 = failed 5 0x24 0 := by
    unfold target at h ⊢
    split
    · rename_i hc; rw [hc] at h; exact absurd rfl h
    · rfl
  rw [this]
  obtain ⟨s, hs, -⟩ := getSense_says _ (by rw [padded_length]; decide) 5 0x24 0
    (reports_padded _ _ _ _ (failed_reports 5 0x24 0 (by decide) (by decide) (by decide)))
  exact ⟨_, hs⟩

variable {K T : Type} [DecidableEq K] (L : Lib) (B : Parse.BufLib) (other : Bytes → Py (List (String × Int)))

/-- **C62 on Linux.** Any sequence of reporting commands executed through the sg executer in front of a target: the caller of each sees what the
target has to say, decoded field by field from the target's own bytes; that the target does not have it (INVALID FIELD IN CDB); or that it does not
fit. The target is unchanged. -/
theorem C62_linux_partial (l : Bool) (t : Target) (alloc : Nat → Alloc) (tmo : Int) (ht : 0 ≤ tmo ∧ tmo < 2 ^ 32) (cmds : List Cmd) (ps : List Told)
    (hask : Each (TellsFilled B t) cmds ps) (hok : Carried L (LinuxOk alloc) cmds)
    (w : W Handle K (Option Bytes) (DevErr Sense) (World (Target × Option Bytes))) (hw : LinuxIdle w.st w.os t) :
    ∃ w' as, RunAll (machine (T := T) (Linux.sgBlocking (lp64 l) getSense (Linux.sgDevice l target)).plat (Linux.prepare (lp64 l) alloc tmo))
        (cmds.map (·.command L B other)) w as w' ∧ Each Sees as ps ∧ LinuxIdle w'.st w'.os t := by
  obtain ⟨w', h1, h2⟩ := C51_linux (K := K) (T := T) l getSense target alloc tmo ht
    (fun m q h => target_parses m q (by intro h0; rw [h0] at h; simp at h)) (cmds.map (·.command L B other)) (carried_map B other hok) w t hw
  obtain ⟨e1, e2⟩ := askAll_target L B other (fun _ _ => reports_filled L B other outcome_passes) hask
  exact ⟨w', _, h1, e1, by rw [← e2]; exact h2⟩

/-- **C62 on Solaris.** -/
theorem C62_solaris_partial (l : Bool) (t : Target) (alloc : Nat → Alloc) (tmo : Int) (ht : 0 ≤ tmo ∧ tmo < 2 ^ 15) (cmds : List Cmd) (ps : List Told)
    (hask : Each (TellsFilled B t) cmds ps) (hok : Carried L (SolarisOk alloc) cmds)
    (w : W Handle K (Option Bytes) (DevErr Sense) (Solaris.SolWorld Target)) (hw : SolarisIdle w.st w.os t) :
    ∃ w' as, RunAll (machine (T := T) (Solaris.solBlocking (lp64 l) getSense (Solaris.uscsiDevice l target)).plat (Solaris.prepare (lp64 l) alloc tmo))
        (cmds.map (·.command L B other)) w as w' ∧ Each Sees as ps ∧ SolarisIdle w'.st w'.os t := by
  obtain ⟨w', h1, h2⟩ := C51_solaris (K := K) (T := T) l getSense target alloc tmo ht
    (fun m q h => target_parses m q (by intro h0; rw [h0] at h; simp at h)) (cmds.map (·.command L B other)) (carried_map B other hok) w t hw
  obtain ⟨e1, e2⟩ := askAll_target L B other (fun _ _ => reports_filled L B other outcome_passes) hask
  exact ⟨w', _, h1, e1, by rw [← e2]; exact h2⟩

/-- **C62 on AIX**, with either ioctl binding. -/
theorem C62_aix_partial (b : Aix.Binding) (t : Target) (alloc : Nat → Alloc) (tmo : Int) (ht : 0 ≤ tmo ∧ tmo < 2 ^ 32) (cmds : List Cmd) (ps : List Told)
    (hask : Each (TellsFilled B t) cmds ps) (hok : Carried L (AixOk b alloc) cmds)
    (w : W Handle K (Option Bytes) (DevErr Sense) (Aix.AixWorld Target)) (hw : AixIdle w.st w.os t) :
    ∃ w' as, RunAll (machine (T := T) (Aix.aixBlocking (lp64 false) getSense b (Aix.scDevice target)).plat (Aix.prepare (lp64 false) alloc tmo))
        (cmds.map (·.command L B other)) w as w' ∧ Each Sees as ps ∧ AixIdle w'.st w'.os t := by
  obtain ⟨w', h1, h2⟩ := C51_aix (K := K) (T := T) getSense b target alloc tmo ht
    (fun m q h => target_parses m q (by intro h0; rw [h0] at h; simp at h)) (cmds.map (·.command L B other)) (carried_map B other hok) w t hw
  obtain ⟨e1, e2⟩ := askAll_target L B other (fun _ _ => reports_filled L B other outcome_passes) hask
  exact ⟨w', _, h1, e1, by rw [← e2]; exact h2⟩

/-- **C62 on Windows**, 32 and 64 bit. -/
theorem C62_windows (b : Bool) (t : Target) (alloc : Nat → Alloc) (cmds : List Cmd) (ps : List Told)
    (hask : Each (TellsExactly B t) cmds ps) (hok : Carried L (WindowsOk b alloc) cmds)
    (w : W Win32.Spt K (Option Bytes) (DevErr Sense) (Win32.WinWorld Target)) (hw : WindowsIdle w.st w.os t) :
    ∃ w' as, RunAll (machine (T := T) (Win32.winPlat (Win32.W b) getSense (Win32.sptDevice b target)) (Win32.prepare (Win32.W b) alloc))
        (cmds.map (·.command L B other)) w as w' ∧ Each Sees as ps ∧ WindowsIdle w'.st w'.os t := by
  obtain ⟨w', h1, h2⟩ := C51_windows (K := K) (T := T) b getSense target alloc
    (fun m q h => target_parses m q (by rw [h]; decide)) (cmds.map (·.command L B other)) (carried_map B other hok) w t hw
  obtain ⟨e1, e2⟩ := askAll_target L B other (fun _ _ => reports_exactly L B other winOutcome_passes) hask
  exact ⟨w', _, h1, e1, by rw [← e2]; exact h2⟩

/-! ## Where the zeros are taken for data -/

/-- A target without provisioning group, without reservation and with the diagnostic pages 00h, 01h, 02h. -/
def plain : Target :=
  { standard := [0, 0, 6, 2, 31, 0, 0, 2] ++ List.replicate 28 0x41
    vpd := fun p => if p = 0xb2 then some [0, 0xb2, 0, 4, 0, 0x80, 2, 0] else if p = 0x80 then some [0, 0x80, 0, 2, 0x37, 0x38] else none
    diagnostic := fun p => if p = 0 then some [0, 0, 0, 3, 0, 1, 2] else none
    luns := fun _ => none
    groups := fun _ => none
    copy := none
    reservations := fun a => if a = 1 then some (be 4 7 ++ be 4 0) else none }

/-- **C62 is false where the data is filled up.** On Linux (and likewise Solaris and AIX, `C62_solaris_partial`, `C62_aix_partial`) the caller is shown a provisioning group
descriptor, a reservation key and 248 further diagnostic pages although the target has sent none: the response is handed on with zeros up to the
allocation length and its decoders go by the length of what they are given. -/
theorem C62_linux_false (l : Bool) (alloc : Nat → Alloc) (tmo : Int) (ht : 0 ≤ tmo ∧ tmo < 2 ^ 32)
    (hok : Carried L (LinuxOk alloc) [.vpd (getVpdPage 0xb2), .persistentReserveIn 1 24, .ses (getSesPage 0) none])
    (w : W Handle K (Option Bytes) (DevErr Sense) (World (Target × Option Bytes))) (hw : LinuxIdle w.st w.os plain) :
    ∃ w' page group attrs attrs' entries,
      RunAll (machine (T := T) (Linux.sgBlocking (lp64 l) getSense (Linux.sgDevice l target)).plat (Linux.prepare (lp64 l) alloc tmo))
        (([.vpd (getVpdPage 0xb2), .persistentReserveIn 1 24, .ses (getSesPage 0) none] : List Cmd).map (·.command L B other)) w
        [.ok (some (.obj (.provisioning (page, some group)))), .ok (some (.obj (.reservations (.reservation attrs)))),
          .ok (some (.obj (.diagnosticBytes (attrs', entries))))] w' ∧
      plain.vpd 0xb2 = some [0, 0xb2, 0, 4, 0, 0x80, 2, 0] ∧ attrs.lookup "reservation_key" = some 0 ∧
      (plain.diagnostic 0 = some [0, 0, 0, 3, 0, 1, 2] ∧ entries.length = 251) := by
  obtain ⟨w', as, h1, h2, -⟩ := C62_linux_partial (K := K) (T := T) L B other l plain alloc tmo ht _ _
    (.cons (.noGroup (b := [0, 0xb2, 0, 4, 0, 0x80, 2, 0]) rfl rfl)
      (.cons (.noReservation (n := 24) (generation := 7) (by decide) (by decide) (by decide) rfl)
        (.cons (.diagnosticPages (p := 0) (b := [0, 0, 0, 3, 0, 1, 2]) (.inl rfl) rfl (by decide) (by decide)) .nil))) hok w hw
  cases h2 with
  | cons a1 h2 =>
  cases h2 with
  | cons a2 h2 =>
  cases h2 with
  | cons a3 h2 =>
  cases h2
  obtain ⟨_, rfl, rfl⟩ := a1
  obtain ⟨_, rfl, rfl⟩ := a2
  obtain ⟨_, rfl, rfl⟩ := a3
  exact ⟨w', _, _, _, _, _, h1, rfl, rfl, rfl, by rw [List.length_append, List.length_replicate]; rfl⟩

/-- The hypotheses are met: serial number, a page the target does not have, standard data and a reservation on Linux, from the executer to `plain`. -/
example (L : Lib) (B : Parse.BufLib) (other : Bytes → Py (List (String × Int))) :
    ∃ w' as, RunAll (machine (T := Unit) (Linux.sgBlocking (K := Unit) (lp64 true) getSense (Linux.sgDevice true target)).plat
        (Linux.prepare (lp64 true) (fun _ => { block := 4096, sense := 8192, cmd := 12288, data := 16384 }) 30000))
        (([.vpd (getVpdPage 0x80), .vpd (getVpdPage 0x86), .standardInquiry 0 0 (36 : Nat), .persistentReserveIn 1 (24 : Nat)] : List Cmd).map
          (·.command L B other))
        { st := { pending := [], index := 6, maxq := 7 }, os := { mem := fun _ => 0xEE, kernel := (plain, none) }, fired := [], box := fun _ => [] } as w' ∧
      as.head? = some (.ok (some (.obj (.serial (⟨[("type", 0), ("qualifier", 0)], [("page_code", 0x80), ("page_length", 2)]⟩, [0x37, 0x38]))))) := by
  have hok : Carried L (LinuxOk (fun _ => { block := 4096, sense := 8192, cmd := 12288, data := 16384 }))
      [.vpd (getVpdPage 0x80), .vpd (getVpdPage 0x86), .standardInquiry 0 0 (36 : Nat), .persistentReserveIn 1 (24 : Nat)] := by
    have fit : ∀ q : Req, q.cdb.length ≤ 16 → dataSize q ≤ 2048 →
        LinuxOk (fun _ => { block := 4096, sense := 8192, cmd := 12288, data := 16384 }) q := by
      intro q h1 h2
      refine ⟨by omega, by omega, fun _ => ⟨?_, ?_⟩⟩
      · simp; omega
      · simp
    intro c hc q hq
    simp only [List.mem_cons, List.not_mem_nil, or_false] at hc
    rcases hc with rfl | rfl | rfl | rfl
    · cases (Cdb.C36_inquiry L 1 0x80 252 (by simp [Fits]) (by simp [Fits]) (by simp [Fits])).symm.trans hq
      exact fit _ (by simp [Req.cdb, Spec.Cdb.inquiry]) (by simp [dataSize])
    · cases (Cdb.C36_inquiry L 1 0x86 2048 (by simp [Fits]) (by simp [Fits]) (by simp [Fits])).symm.trans hq
      exact fit _ (by simp [Req.cdb, Spec.Cdb.inquiry]) (by simp [dataSize])
    · cases (Cdb.C36_inquiry L 0 0 36 (by simp [Fits]) (by simp [Fits]) (by simp [Fits])).symm.trans hq
      exact fit _ (by simp [Req.cdb, Spec.Cdb.inquiry]) (by simp [dataSize])
    · cases (Cdb.C36_persistent_reserve_in L 1 24 (by simp [Fits]) (by simp [Fits]) (by decide)).symm.trans hq
      exact fit _ (by simp [Req.cdb, Spec.Cdb.persistentReserveIn]) (by simp [dataSize])
  obtain ⟨w', as, h1, h2, -⟩ := C62_linux_partial (K := Unit) (T := Unit) L B other true plain
    (fun _ => { block := 4096, sense := 8192, cmd := 12288, data := 16384 }) 30000 (by decide)
    [.vpd (getVpdPage 0x80), .vpd (getVpdPage 0x86), .standardInquiry 0 0 (36 : Nat), .persistentReserveIn 1 (24 : Nat)] _
    (.cons (.same (.serial (b := [0, 0x80, 0, 2, 0x37, 0x38]) rfl (by decide) (by decide) (by decide) (by decide)))
      (.cons (.same (.noPage (p := 0x86) (by decide) rfl))
        (.cons (.same (.standard (n := 36) (by decide) (by decide) (by decide) (by decide) (by decide)))
          (.cons (.noReservation (n := 24) (generation := 7) (by decide) (by decide) (by decide) rfl) .nil)))) hok
    { st := { pending := [], index := 6, maxq := 7 }, os := { mem := fun _ => 0xEE, kernel := (plain, none) }, fired := [], box := fun _ => [] }
    ⟨rfl, by simp, by simp, by simp, rfl⟩
  refine ⟨w', as, h1, ?_⟩
  cases h2 with
  | cons a1 h2 =>
    obtain ⟨_, rfl, rfl⟩ := a1
    rw [show B.trim (List.drop 4 [0, 0x80, 0, 2, 0x37, 0x38]) = [0x37, 0x38] from Parse.trim_whole B (by simp)]
    rfl

end Verif.Commands
