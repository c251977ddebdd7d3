import Verif.Props.Target
import Verif.Parse.CutLemmas
import Verif.Parse.CutSesLemmas
/-!
# C81: a response longer than the command has room for is not taken for the whole

The commands of C62, in front of a target whose pages and lists are longer than the allocation length: the target sends the first bytes
(SPC-4 4.2.5.6), and says in its length fields how much there is.
-/
set_option linter.unusedSimpArgs false
set_option linter.unusedSectionVars false

namespace Verif.Commands

open Verif.Executer Verif.Coroutine Verif.ExecuterGen Verif.Platform Verif.Spec Verif.Spec.Disk Verif.Spec.Cdb Verif.Sense Verif.Spec.Target

/-- The first `room` bytes of the descriptors `ds` are `before` and `m` bytes of `d`, which is longer. -/
def CutAt (ds : List Bytes) (room : Nat) (before : List Bytes) (d : Bytes) (m : Nat) : Prop :=
  (∃ after, ds = before ++ d :: after) ∧ before.flatten.length + m = room ∧ m < d.length

/-- A target port group descriptor as an object. -/
def groupOf (d : Bytes) : Parse.TargetPortGroup :=
  { attrs := targetPortGroup d, ports := (targetPorts d).map fun (p : Nat) => [("relative_target_port_identifier", (p : Int))] }

/-- A full status descriptor as an object, of whose TransportID the bytes up to byte `m` of the descriptor have arrived. -/
def statusOf (d : Bytes) (m : Nat) : Parse.FullStatus :=
  { attrs := Spec.fullStatus d, transport := { attrs := transportId (d.drop 24), specificData := (d.take m).drop 25 } }

/-- The object for `m` bytes of a descriptor without numbers: what is left of its text. -/
def designatorCut (B : Parse.BufLib) (d : Bytes) (m : Nat) : Parse.Designator :=
  ⟨Spec.designatorClass d, Spec.designatorHeader d, Spec.designatorData B.trim (d.take m)⟩

/-- A status element as an object (readings as in C46), of which the first `n` bytes of the vendor specific part have arrived. -/
def elementOf (B : Parse.BufLib) (n code : Nat) (e : Bytes) : Parse.Ses.StatusElement :=
  let r : Spec.Ses.Reading := { signed := B.sg, signedSensors := B.sg, fanSwapped := B.lowFirst, requests := 2 }
  { cls := Spec.Ses.className code, attrs := Spec.Ses.common e, info := Spec.Ses.info r code e, general := (Spec.Ses.general r code e).take n }

/-- The status of an element type. -/
def typeStatusOf (B : Parse.BufLib) (s : Spec.Ses.TypeStatus) : Parse.Ses.StatusDescriptor :=
  { overall := elementOf B 3 0 s.overall, individual := s.elements.map (elementOf B 3 s.type.code.toNat) }

/-- The status page of `ss`, if these are its descriptors. -/
def statusPageOf (B : Parse.BufLib) (flags : UInt8) (generation : Nat) (ss : List Spec.Ses.TypeStatus) (ds : List Parse.Ses.StatusDescriptor) : Result :=
  .status { attrs := Parse.Ses.statusAttrs B flags generation ((Spec.Ses.enclosureStatus flags generation ss).length - 4), descriptors := ds }

/-- The enclosure's status page is 65536 bytes long, and belongs to the configuration `g`, `es`. -/
structure LongStatus (B : Parse.BufLib) (t : Target) (g : Nat) (es : List Bytes) (flags : UInt8) (generation : Nat) (ss : List Spec.Ses.TypeStatus) : Prop where
  page : t.diagnostic 2 = some (Spec.Ses.enclosureStatus flags generation ss)
  belongs : Spec.Ses.IsConfiguration g es (ss.map (·.type))
  small : B.sg = true → Spec.Ses.Small es (ss.map (·.type))
  each : ∀ s ∈ ss, s.Ok
  generationFits : generation < 2 ^ 32
  length : (Spec.Ses.enclosureStatus flags generation ss).length = 65536

/-- The descriptors of an element type. -/
def typeTextsOf (s : Spec.Ses.TypeTexts) : Parse.Ses.ElementDescriptor :=
  { overall := ⟨s.overall.length, s.overall⟩, individual := s.elements.map fun t => ⟨t.length, t⟩ }

/-- The element descriptor page of `ss`, if these are its descriptors. -/
def textsPageOf (B : Parse.BufLib) (generation : Nat) (ss : List Spec.Ses.TypeTexts) (ds : List Parse.Ses.ElementDescriptor) : Result :=
  .descriptors
    { attrs := [("page_code", 7), ("page_length", asInt B.sg 2 ((Spec.Ses.elementDescriptors generation ss).length - 4)),
        ("generation_code", asInt B.sg 4 generation)]
      descriptors := ds }

/-- The enclosure's element descriptor page has `c` bytes more than 65535, and belongs to the configuration `g`, `es`. -/
structure LongTexts (B : Parse.BufLib) (t : Target) (g : Nat) (es : List Bytes) (generation : Nat) (ss : List Spec.Ses.TypeTexts) (c : Nat) : Prop where
  page : t.diagnostic 7 = some (Spec.Ses.elementDescriptors generation ss)
  belongs : Spec.Ses.IsConfiguration g es (ss.map (·.type))
  small : B.sg = true → Spec.Ses.Small es (ss.map (·.type))
  each : ∀ s ∈ ss, s.Ok
  texts : ∀ s ∈ ss, ∀ t ∈ s.overall :: s.elements, t.length < 2 ^ 16 ∧ (B.sg = true → t.length < 2 ^ 15)
  generationFits : generation < 2 ^ 32
  length : (Spec.Ses.elementDescriptors generation ss).length = 65535 + c
  more : 0 < c
  announced : c ≤ 4

/-- What the caller of a reporting command is told by target `t`, when the response does not fit the allocation length. -/
inductive Cuts (B : Parse.BufLib) (t : Target) : Cmd → Told → Prop
  /-- more than 248 page codes: refused -/
  | supported {b : Bytes} : t.vpd 0x00 = some b → b.length = 4 + byteAt b 3 → 252 < b.length → Cuts B t (.vpd (getVpdPage 0x00)) .incomplete
  /-- a serial number of more than 248 characters: the first 248 of them -/
  | serial {b : Bytes} : t.vpd 0x80 = some b → b.length = 4 + byteAt b 3 → 252 < b.length → Ascii (b.drop 4) →
      Cuts B t (.vpd (getVpdPage 0x80)) (.learns (· = .serial (⟨peripheral b, vpdHeaderShort b⟩, B.trim ((b.drop 4).take 248))))
  /-- cut between two designators: those that arrived -/
  | identificationBetween {first : UInt8} {ds before : List Bytes} {d : Bytes} : t.vpd 0x83 = some (Spec.deviceIdentification first ds) →
      CutAt ds 248 before d 0 → (∀ d ∈ ds, IsDesignator d ∧ TextOk d) → (B.lowFirst = true ∨ ∀ d ∈ ds, designatorType d ≠ 3) → ds.flatten.length < 2 ^ 16 →
      Cuts B t (.vpd (getVpdPage 0x83)) (.learns (· = .designators
        (⟨peripheral [first], [("page_code", 0x83), ("page_length", (ds.flatten.length : Int))]⟩, before.map (designatorOf B))))
  /-- cut in the header of a designator, or in one that has numbers: refused -/
  | identificationRefused {first : UInt8} {ds before : List Bytes} {d : Bytes} {m : Nat} : t.vpd 0x83 = some (Spec.deviceIdentification first ds) →
      CutAt ds 248 before d m → 0 < m → m < 4 ∨ 2 ≤ designatorType d ∧ designatorType d ≤ 6 →
      (∀ d ∈ ds, IsDesignator d ∧ TextOk d) → (B.lowFirst = true ∨ ∀ d ∈ ds, designatorType d ≠ 3) → ds.flatten.length < 2 ^ 16 →
      Cuts B t (.vpd (getVpdPage 0x83)) .incomplete
  /-- cut in the text of a designator: those that arrived, and one with the rest of the text -/
  | identificationText {first : UInt8} {ds before : List Bytes} {d : Bytes} {m : Nat} : t.vpd 0x83 = some (Spec.deviceIdentification first ds) →
      CutAt ds 248 before d m → 4 ≤ m → ¬ (2 ≤ designatorType d ∧ designatorType d ≤ 6) →
      (∀ d ∈ ds, IsDesignator d ∧ TextOk d) → (B.lowFirst = true ∨ ∀ d ∈ ds, designatorType d ≠ 3) → ds.flatten.length < 2 ^ 16 →
      Cuts B t (.vpd (getVpdPage 0x83)) (.learns (· = .designators
        (⟨peripheral [first], [("page_code", 0x83), ("page_length", (ds.flatten.length : Int))]⟩, before.map (designatorOf B) ++ [designatorCut B d m])))
  | limits {b : Bytes} : t.vpd 0xb0 = some b → 252 < b.length →
      Cuts B t (.vpd (getVpdPage 0xb0)) (.learns fun x => ∃ a : Nat,
        x = .page ⟨peripheral b, blockLimits b ++ [("unmap_granularity_alignment", (a : Int))]⟩ ∧ (B.lowFirst = true → a = unmapGranularityAlignment b))
  /-- a PROVISIONING GROUP DESCRIPTOR of more than 244 bytes -/
  | provisioning {b d : Bytes} : t.vpd 0xb2 = some (b ++ d) → b.length = 8 → 244 < d.length → IsDesignator d → TextOk d →
      Cuts B t (.vpd (getVpdPage 0xb2)) (.learns (· = .provisioning (⟨peripheral b, Spec.provisioning b⟩, some (designatorCut B d 244))))
  | veritas {b : Bytes} : t.vpd 0xc0 = some b → 252 < b.length →
      Cuts B t (.vpd (getVpdPage 0xc0)) (.learns (· = .page ⟨peripheral b, Spec.veritas b⟩))
  | otherPage {p : Nat} {b : Bytes} : p < 256 → p ∉ [0x00, 0x80, 0x83, 0x89, 0xb0, 0xb2, 0xc0] → t.vpd p = some b → b.length = 4 + num b 2 2 →
      2048 < b.length →
      Cuts B t (.vpd (getVpdPage p)) (.learns (· = .bytes (⟨peripheral b, vpdHeader b⟩, ((b.drop 4).take 2044).map UInt8.toNat)))
  /-- less than one LUN asked for: the first bytes as they are -/
  | rawLuns {select n : Nat} {allow : Bool} {b : Bytes} : select < 256 → 0 < n → n < 16 → t.luns select = some b → n ≤ b.length →
      Cuts B t (.reportLuns select n allow) (.learns (· = .luns (.raw (some (b.take n)))))
  | groupsHeader {n : Nat} {groups : List Bytes} : 0 < n → n < 4 → t.groups 0 = some (rtpgLengthOnly groups) → Cuts B t (.rtpg 0 n) .incomplete
  /-- cut between two groups: those that arrived -/
  | groupsBetween {n : Nat} {groups before : List Bytes} {d : Bytes} : 4 ≤ n → n < 2 ^ 32 → t.groups 0 = some (rtpgLengthOnly groups) →
      CutAt groups (n - 4) before d 0 → (∀ d ∈ groups, IsTargetPortGroup d) →
      (B.sg = true → ∀ d ∈ groups, byteAt d 5 < 128 ∧ byteAt d 7 < 128) → groups.flatten.length < 2 ^ 31 →
      Cuts B t (.rtpg 0 n) (.learns (· = .groups { attrs := [("data_length", (groups.flatten.length : Int))], groups := before.map groupOf }))
  /-- cut in a group: refused -/
  | groupsRefused {n m : Nat} {groups before : List Bytes} {d : Bytes} : 4 ≤ n → n < 2 ^ 32 → t.groups 0 = some (rtpgLengthOnly groups) →
      CutAt groups (n - 4) before d m → 0 < m → (∀ d ∈ groups, IsTargetPortGroup d) →
      (B.sg = true → ∀ d ∈ groups, byteAt d 5 < 128 ∧ byteAt d 7 < 128) → groups.flatten.length < 2 ^ 31 →
      Cuts B t (.rtpg 0 n) .incomplete
  | copyHeader {n : Nat} {b : Bytes} : 0 < n → n < 44 → t.copy = some b → 44 ≤ b.length → Cuts B t (.receiveCopy n 0) .incomplete
  /-- cut in the list of descriptor type codes: those that arrived -/
  | copyList {n : Nat} {b : Bytes} : 44 ≤ n → n < b.length → t.copy = some b → b.length = 44 + byteAt b 43 →
      Cuts B t (.receiveCopy n 0) (.learns (· = .copy { attrs := Spec.receiveCopy b, descriptors := ((b.take n).drop 44).map UInt8.toNat }))
  /-- less than the reservation: the fields that arrived -/
  | reservationHeader {n : Nat} {b : Bytes} : 8 ≤ n → n < 16 → t.reservations 1 = some b → b.length = 24 →
      Cuts B t (.persistentReserveIn 1 n) (.learns (· = .reservations (.reservation ((readReservation b).take 2))))
  | reservationKey {n : Nat} {b : Bytes} : 16 ≤ n → n < 20 → t.reservations 1 = some b → b.length = 24 →
      Cuts B t (.persistentReserveIn 1 n) (.learns (· = .reservations (.reservation ((readReservation b).take 3))))
  | reservationObsolete {b : Bytes} : t.reservations 1 = some b → b.length = 24 →
      Cuts B t (.persistentReserveIn 1 (20 : Nat)) (.learns (· = .reservations (.reservation ((readReservation b).take 4))))
  | reservationRefused {b : Bytes} : t.reservations 1 = some b → b.length = 24 → Cuts B t (.persistentReserveIn 1 (21 : Nat)) .incomplete
  | reservationType {n : Nat} {b : Bytes} : 22 ≤ n → n < 24 → t.reservations 1 = some b → b.length = 24 →
      Cuts B t (.persistentReserveIn 1 n) (.learns (· = .reservations (.reservation ((readReservation b).take 7))))
  /-- cut between two full status descriptors: those that arrived -/
  | statusBetween {n generation : Nat} {ds before : List Bytes} {d : Bytes} : 8 ≤ n → n < 2 ^ 16 → t.reservations 3 = some (readFullStatus generation ds) →
      generation < 2 ^ 32 → CutAt ds (n - 8) before d 0 → (∀ d ∈ ds, IsFullStatus d) → ds.flatten.length < 2 ^ 32 →
      Cuts B t (.persistentReserveIn 3 n) (.learns (· = .reservations (.fullStatus
        { attrs := [("pr_generation", (generation : Int)), ("additional_length", (ds.flatten.length : Int))]
          descriptors := some (before.map fun d => statusOf d d.length) })))
  /-- cut before the TransportID: refused -/
  | statusRefused {n m generation : Nat} {ds before : List Bytes} {d : Bytes} : 8 ≤ n → n < 2 ^ 16 → t.reservations 3 = some (readFullStatus generation ds) →
      generation < 2 ^ 32 → CutAt ds (n - 8) before d m → 0 < m → m < 25 → (∀ d ∈ ds, IsFullStatus d) → ds.flatten.length < 2 ^ 32 →
      Cuts B t (.persistentReserveIn 3 n) .incomplete
  /-- cut in a TransportID: those that arrived, and one with the rest of its TransportID -/
  | statusTransport {n m generation : Nat} {ds before : List Bytes} {d : Bytes} : 8 ≤ n → n < 2 ^ 16 → t.reservations 3 = some (readFullStatus generation ds) →
      generation < 2 ^ 32 → CutAt ds (n - 8) before d m → 25 ≤ m → (∀ d ∈ ds, IsFullStatus d) → ds.flatten.length < 2 ^ 32 →
      Cuts B t (.persistentReserveIn 3 n) (.learns (· = .reservations (.fullStatus
        { attrs := [("pr_generation", (generation : Int)), ("additional_length", (ds.flatten.length : Int))]
          descriptors := some ((before.map fun d => statusOf d d.length) ++ [statusOf d m]) })))
  /-- more than 251 diagnostic pages, or subenclosures: the first 251 -/
  | diagnosticPages {p : Nat} {b : Bytes} : p = 0x00 ∨ p = 0x80 → t.diagnostic p = some b → 255 < b.length →
      Cuts B t (.ses (getSesPage p) none) (.learns (· = .diagnosticBytes
        ([("page_code", asInt B.sg 1 (byteAt b 0)), ("page_length", asInt B.sg 2 (num b 2 2))], ((b.take 255).drop 4).map UInt8.toNat)))
  /-- a configuration cut in the texts of the element types: what arrived of them -/
  | configurationTexts {generation : Nat} {es : List Bytes} {ts : List Spec.Ses.ElementType} :
      t.diagnostic 1 = some (Spec.Ses.configuration generation es ts) → Spec.Ses.IsConfiguration generation es ts → (B.sg = true → Spec.Ses.Small es ts) →
      65535 < (Spec.Ses.configuration generation es ts).length → 8 + es.flatten.length + 4 * ts.length ≤ 65535 →
      Cuts B t (.ses (getSesPage 1) none) (.learns (· = .configuration { configurationOf B generation es ts with
        texts := Parse.Ses.arrived (ts.map Spec.Ses.ElementType.text) (65535 - (8 + es.flatten.length + 4 * ts.length)) }))
  /-- cut in the list of the element types: refused -/
  | configurationRefused {generation : Nat} {es : List Bytes} {ts : List Spec.Ses.ElementType} :
      t.diagnostic 1 = some (Spec.Ses.configuration generation es ts) → Spec.Ses.IsConfiguration generation es ts → (B.sg = true → Spec.Ses.Small es ts) →
      ts ≠ [] → 65535 < 8 + es.flatten.length + 4 * ts.length → Cuts B t (.ses (getSesPage 1) none) .incomplete
  /-- cut in the last enclosure (there are no element types then): what arrived of its revision and vendor specific part -/
  | configurationEnclosure {generation : Nat} {init : List Bytes} {e : Bytes} :
      t.diagnostic 1 = some (Spec.Ses.configuration generation (init ++ [e]) []) → Spec.Ses.IsConfiguration generation (init ++ [e]) [] →
      (B.sg = true → Spec.Ses.Small (init ++ [e]) []) → 65535 < (Spec.Ses.configuration generation (init ++ [e]) []).length →
      Cuts B t (.ses (getSesPage 1) none) (.learns (· =
        let m := 65535 - (8 + init.flatten.length)
        .configuration { configurationOf B generation (init ++ [e]) [] with
          enclosures := (configurationOf B generation init []).enclosures ++
            [{ attrs := Spec.Ses.enclosureNumbers B.sg e, logicalId := (e.drop 4).take 8, vendor := B.trim ((e.drop 12).take 8),
               product := B.trim ((e.drop 20).take 16), revision := B.trim (((e.take m).drop 36).take 4), vendorSpecific := (e.take m).drop 40 }] }))
  /-- the last byte of the last element is missing and not needed -/
  | statusLast {g generation : Nat} {es : List Bytes} {flags : UInt8} {front : List Spec.Ses.TypeStatus} {s : Spec.Ses.TypeStatus} {init : List Bytes} {e : Bytes} :
      LongStatus B t g es flags generation (front ++ [s]) → s.elements = init ++ [e] → ¬ Parse.Ses.UsesLast s.type.code.toNat →
      Cuts B t (.ses (getSesPage 2) (some (configurationOf B g es ((front ++ [s]).map (·.type))))) (.learns (· =
        statusPageOf B flags generation (front ++ [s]) (front.map (typeStatusOf B) ++
          [{ overall := elementOf B 3 0 s.overall, individual := init.map (elementOf B 3 s.type.code.toNat) ++ [elementOf B 2 s.type.code.toNat e] }])))
  /-- it is needed: refused -/
  | statusLastRefused {g generation : Nat} {es : List Bytes} {flags : UInt8} {front : List Spec.Ses.TypeStatus} {s : Spec.Ses.TypeStatus} :
      LongStatus B t g es flags generation (front ++ [s]) → s.elements ≠ [] → Parse.Ses.UsesLast s.type.code.toNat →
      Cuts B t (.ses (getSesPage 2) (some (configurationOf B g es ((front ++ [s]).map (·.type))))) .incomplete
  /-- the last byte of the overall element of a type without elements -/
  | statusLastOverall {g generation : Nat} {es : List Bytes} {flags : UInt8} {front : List Spec.Ses.TypeStatus} {s : Spec.Ses.TypeStatus} :
      LongStatus B t g es flags generation (front ++ [s]) → s.elements = [] →
      Cuts B t (.ses (getSesPage 2) (some (configurationOf B g es ((front ++ [s]).map (·.type))))) (.learns (· =
        statusPageOf B flags generation (front ++ [s]) (front.map (typeStatusOf B) ++ [{ overall := elementOf B 2 0 s.overall, individual := [] }])))
  /-- cut in the text of the last descriptor: what arrived of it -/
  | textsLast {g generation c : Nat} {es : List Bytes} {front : List Spec.Ses.TypeTexts} {s : Spec.Ses.TypeTexts} {init : List Bytes} {x : Bytes} :
      LongTexts B t g es generation (front ++ [s]) c → s.elements = init ++ [x] → c ≤ x.length →
      Cuts B t (.ses (getSesPage 7) (some (configurationOf B g es ((front ++ [s]).map (·.type))))) (.learns (· =
        textsPageOf B generation (front ++ [s]) (front.map typeTextsOf ++
          [{ overall := ⟨s.overall.length, s.overall⟩, individual := init.map (fun t => ⟨t.length, t⟩) ++ [⟨x.length, x.take (x.length - c)⟩] }])))
  /-- cut in its length: refused -/
  | textsLastRefused {g generation c : Nat} {es : List Bytes} {front : List Spec.Ses.TypeTexts} {s : Spec.Ses.TypeTexts} {init : List Bytes} {x : Bytes} :
      LongTexts B t g es generation (front ++ [s]) c → s.elements = init ++ [x] → x.length < c →
      Cuts B t (.ses (getSesPage 7) (some (configurationOf B g es ((front ++ [s]).map (·.type))))) .incomplete
  /-- the same if the last type has no elements -/
  | textsOverall {g generation c : Nat} {es : List Bytes} {front : List Spec.Ses.TypeTexts} {s : Spec.Ses.TypeTexts} :
      LongTexts B t g es generation (front ++ [s]) c → s.elements = [] → c ≤ s.overall.length →
      Cuts B t (.ses (getSesPage 7) (some (configurationOf B g es ((front ++ [s]).map (·.type))))) (.learns (· =
        textsPageOf B generation (front ++ [s]) (front.map typeTextsOf ++
          [{ overall := ⟨s.overall.length, s.overall.take (s.overall.length - c)⟩, individual := [] }])))
  | textsOverallRefused {g generation c : Nat} {es : List Bytes} {front : List Spec.Ses.TypeTexts} {s : Spec.Ses.TypeTexts} :
      LongTexts B t g es generation (front ++ [s]) c → s.elements = [] → s.overall.length < c →
      Cuts B t (.ses (getSesPage 7) (some (configurationOf B g es ((front ++ [s]).map (·.type))))) .incomplete

section step

variable {t : Target} {tail : Nat → Bytes → Bytes → Prop} {out : Req → Answer → Except (Exn (DevErr Sense)) (Option (Option Bytes))} (L : Lib) (B : Parse.BufLib)
  (other : Bytes → Py (List (String × Int)))

/-- What the caller sees of a decoded response. -/
def SeesOf (r : Py Result) (p : Told) : Prop := Sees (match r with | .ok x => .ok (some (.obj x)) | .error e => .error (.py e)) p

theorem shows_ok {x : Result} {r : Py Result} (P : Result → Prop) (h : r = .ok x) (hp : P x) : SeesOf r (.learns P) := by subst h; exact ⟨x, rfl, hp⟩

theorem shows_incomplete {r : Py Result} (h : r = .error .truncated) : SeesOf r .incomplete := by subst h; rfl

/-- The response fills the allocation length. -/
theorem reports_cut (hP : Passes tail out) (c : Cmd) (cdb b : Bytes) (n : Nat) (p : Told) (hi : InRange c.cdb) (hr : Cdb.request L c.cdb = .ok (.read cdb n))
    (hm : report t (meaning c.cdb) = some (b, n)) (h0 : 0 < n) (hn : n ≤ b.length) (hdec : SeesOf (c.decode B other (some (b.take n))) p) :
    Reports t out L B other c p := by
  have hl : (b.take n).length = n := by rw [List.length_take]; omega
  refine reports_read L B other hP c cdb b _ n p hi hr hm rfl (ne_nil_of_le 0 (by omega)) fun rest h _ => ⟨_, rfl, ?_⟩
  have : rest = [] := List.length_eq_zero_iff.1 (by omega)
  rw [this, List.append_nil]
  exact hdec

theorem cut_vpd (hP : Passes tail out) (p : Nat) (hp : p < 256) (alloc : Nat) (ha : (getVpdPage p).args.2.1 = alloc) (h0 : 0 < alloc) (b : Bytes)
    (hb : t.vpd p = some b) (hl : alloc ≤ b.length) (q : Told) (hdec : SeesOf (unpackVpd B (b.take alloc) (getVpdPageData p)) q) :
    Reports t out L B other (.vpd (getVpdPage p)) q := by
  obtain ⟨hi, hm, cdb, hr⟩ := vpd_request L p hp alloc ha
  refine reports_cut L B other hP _ cdb b alloc q hi hr (by rw [hm]; simp [report, hb]) h0 hl ?_
  have := (C50_vpd L B other p).2.2 (b.take alloc)
  simp only [Cmd.command, Option.getD_some] at this
  rw [this]; exact hdec

theorem cut_prin (hP : Passes tail out) (sa n : Nat) (hs : sa < 32) (h8 : 8 ≤ n) (hn : n < 2 ^ 16) (b : Bytes) (hb : t.reservations sa = some b)
    (hl : n ≤ b.length) (q : Told) (hdec : SeesOf ((Parse.prin B.sg sa (b.take n)).map .reservations) q) :
    Reports t out L B other (.persistentReserveIn sa n) q := by
  refine reports_cut L B other hP _ _ b n q ⟨⟨by omega, by omega⟩, ⟨by omega, by omega⟩⟩
    (Cdb.C36_persistent_reserve_in L sa n ⟨by omega, by omega⟩ ⟨by omega, by omega⟩ (by omega)) (by simp [Cmd.cdb, meaning, report, hb]) (by omega) hl ?_
  simp only [Cmd.decode, withData]
  exact hdec

theorem cut_rtpg (hP : Passes tail out) (n : Nat) (h0 : 0 < n) (hn : n < 2 ^ 32) (b : Bytes) (hb : t.groups 0 = some b)
    (hl : n ≤ b.length) (q : Told) (hdec : SeesOf ((Parse.rtpg B.sg 0 (b.take n)).map .groups) q) : Reports t out L B other (.rtpg 0 n) q := by
  refine reports_cut L B other hP _ _ b n q ⟨by simp [Fits], ⟨by omega, by omega⟩⟩
    (Cdb.C36_rtpg L 0 n (.inl rfl) ⟨by omega, by omega⟩) (by simp [Cmd.cdb, meaning, report, hb]) h0 hl ?_
  simp only [Cmd.decode, withData]
  exact hdec

theorem cut_copy (hP : Passes tail out) (n : Nat) (h0 : 0 < n) (hn : n < 2 ^ 32) (b : Bytes) (hb : t.copy = some b)
    (hl : n ≤ b.length) (q : Told) (hdec : SeesOf ((Parse.receiveCopy B.sg (b.take n)).map .copy) q) : Reports t out L B other (.receiveCopy n 0) q := by
  refine reports_cut L B other hP _ _ b n q ⟨⟨by omega, by omega⟩, by simp [Fits]⟩
    (Cdb.C36_receive_copy L n 0 ⟨by omega, by omega⟩ (by simp [Fits])) (by simp [Cmd.cdb, meaning, report, hb]) h0 hl ?_
  simp only [Cmd.decode, withData]
  exact hdec

theorem cut_ses (hP : Passes tail out) (p : Nat) (hp : p < 256) (alloc : Nat) (ha : (getSesPage p).args.2.1 = alloc) (h0 : 0 < alloc) (conf : Option Parse.Ses.Configuration)
    (b : Bytes) (hb : t.diagnostic p = some b) (hl : alloc ≤ b.length) (q : Told) (hdec : SeesOf (unpackSes B other conf (b.take alloc) (getSesPageData p)) q) :
    Reports t out L B other (.ses (getSesPage p) conf) q := by
  obtain ⟨hi, hm, cdb, hr⟩ := ses_request L p hp alloc ha conf
  refine reports_cut L B other hP _ cdb b alloc q hi hr (by rw [hm]; simp [report, hb]) h0 hl ?_
  have := (C50_ses L B other p conf).2.2 (b.take alloc)
  simp only [Cmd.command, Option.getD_some] at this
  rw [this]; exact hdec

theorem elementOf_full (e : Bytes) (code : Nat) : elementOf B 3 code e = Parse.Ses.elementObject B code e := by
  have : (Spec.Ses.general (Parse.Ses.reading B) code e).take 3 = Spec.Ses.general (Parse.Ses.reading B) code e :=
    List.take_of_length_le (by unfold Spec.Ses.general; split <;> simp)
  show (⟨_, _, _, (Spec.Ses.general (Parse.Ses.reading B) code e).take 3⟩ : Parse.Ses.StatusElement) = _
  rw [this]
  rfl

theorem typeStatusOf_eq : typeStatusOf B = Parse.Ses.statusObject B := by
  funext s
  unfold typeStatusOf Parse.Ses.statusObject
  rw [elementOf_full, show elementOf B 3 s.type.code.toNat = Parse.Ses.elementObject B s.type.code.toNat from funext fun e => elementOf_full B e _]

/-- A status page of 65536 bytes: the last type is read from one byte less. -/
theorem cut_status (hP : Passes tail out) {g generation : Nat} {es : List Bytes} {flags : UInt8} {front : List Spec.Ses.TypeStatus} {s : Spec.Ses.TypeStatus}
    (h : LongStatus B t g es flags generation (front ++ [s])) (q : Told)
    (hdec : SeesOf (((Parse.Ses.statusDescriptor B (Spec.Ses.typeNumbers B.sg s.type) ((Parse.Ses.statusPart s).take ((Parse.Ses.statusPart s).length - 1))).map
      fun p => (⟨Parse.Ses.statusAttrs B flags generation ((Spec.Ses.enclosureStatus flags generation (front ++ [s])).length - 4),
        front.map (typeStatusOf B) ++ [p.1]⟩ : Parse.Ses.EnclosureStatus)).map .status) q) :
    Reports t out L B other (.ses (getSesPage 2) (some (configurationOf B g es ((front ++ [s]).map (·.type))))) q := by
  have h1 := (Parse.Ses.status_length flags generation _ h.each).1
  have h2 := Parse.Ses.statusPart_length s (h.each s (by simp))
  have h3 := h.length
  have h4 : ((front ++ [s]).flatMap Parse.Ses.statusPart).length = (front.flatMap Parse.Ses.statusPart).length + (Parse.Ses.statusPart s).length := by
    rw [List.flatMap_append, List.length_append]; simp
  refine cut_ses L B other hP 2 (by decide) 65535 rfl (by decide) _ _ h.page (by omega) q ?_
  have hm : ∀ x ∈ front, x ∈ front ++ [s] := fun x hx => List.mem_append_left _ hx
  have := Parse.Ses.status_cut B (configurationOf B g es ((front ++ [s]).map (·.type))) flags generation front s 65535
    (by simp [configurationOf]) (fun hb x hx => (h.small hb).possible x.type (List.mem_map.2 ⟨x, hm x hx, rfl⟩)) (fun x hx => h.each x (hm x hx)) h.generationFits
    (by omega) (by omega)
  rw [show 65535 - (8 + (front.flatMap Parse.Ses.statusPart).length) = (Parse.Ses.statusPart s).length - 1 by omega, ← typeStatusOf_eq] at this
  have hd : ∀ conf b, unpackSes B other (some conf) b (getSesPageData ((2 : Nat) : Int)) = (Parse.Ses.enclosureStatus B conf b).map Result.status := fun _ _ => rfl
  rw [hd, this]
  exact hdec

/-- An element descriptor page of `65535 + c` bytes: the last type is read from `c` bytes less. -/
theorem cut_texts (hP : Passes tail out) {g generation c : Nat} {es : List Bytes} {front : List Spec.Ses.TypeTexts} {s : Spec.Ses.TypeTexts}
    (h : LongTexts B t g es generation (front ++ [s]) c) (q : Told)
    (hdec : SeesOf (((Parse.Ses.elementDescriptor B (Spec.Ses.typeNumbers B.sg s.type) ((Parse.Ses.textsPart s).take ((Parse.Ses.textsPart s).length - c))).map
      fun p => (⟨[("page_code", 7), ("page_length", asInt B.sg 2 ((Spec.Ses.elementDescriptors generation (front ++ [s])).length - 4)),
        ("generation_code", asInt B.sg 4 generation)], front.map typeTextsOf ++ [p.1]⟩ : Parse.Ses.ElementDescriptors)).map .descriptors) q) :
    Reports t out L B other (.ses (getSesPage 7) (some (configurationOf B g es ((front ++ [s]).map (·.type))))) q := by
  have h1 := Parse.Ses.descriptors_length generation (front ++ [s])
  have h3 := h.length
  have hc := h.more
  have hc' := h.announced
  have h5 : 4 ≤ (Parse.Ses.textsPart s).length := by
    unfold Parse.Ses.textsPart Spec.Ses.descriptor; simp
  have h4 : ((front ++ [s]).flatMap Parse.Ses.textsPart).length = (front.flatMap Parse.Ses.textsPart).length + (Parse.Ses.textsPart s).length := by
    rw [List.flatMap_append, List.length_append]; simp
  refine cut_ses L B other hP 7 (by decide) 65535 rfl (by decide) _ _ h.page (by omega) q ?_
  have hm : ∀ x ∈ front, x ∈ front ++ [s] := fun x hx => List.mem_append_left _ hx
  have := Parse.Ses.descriptors_cut B (configurationOf B g es ((front ++ [s]).map (·.type))) generation front s 65535
    (by simp [configurationOf]) (fun hb x hx => (h.small hb).possible x.type (List.mem_map.2 ⟨x, hm x hx, rfl⟩)) (fun x hx => h.each x (hm x hx))
    (fun x hx => h.texts x (hm x hx)) h.generationFits (by omega) (by omega)
  rw [show 65535 - (8 + (front.flatMap Parse.Ses.textsPart).length) = (Parse.Ses.textsPart s).length - c by omega] at this
  have hd : ∀ conf b, unpackSes B other (some conf) b (getSesPageData ((7 : Nat) : Int)) = (Parse.Ses.elementDescriptors B conf b).map Result.descriptors := fun _ _ => rfl
  rw [hd, this]
  exact hdec

/-- The texts of a type without its last `c` bytes. -/
theorem texts_take (s : Spec.Ses.TypeTexts) (init : List Bytes) (x : Bytes) (c : Nat) (h : s.elements = init ++ [x]) (hc : c ≤ 4) :
    (Parse.Ses.textsPart s).take ((Parse.Ses.textsPart s).length - c) =
      Spec.Ses.descriptor s.overall ++ (init.flatMap Spec.Ses.descriptor ++ (Spec.Ses.descriptor x).take (x.length + 4 - c)) := by
  have hx : (Spec.Ses.descriptor x).length = x.length + 4 := by simp [Spec.Ses.descriptor]; omega
  have e : Parse.Ses.textsPart s = Spec.Ses.descriptor s.overall ++ (init.flatMap Spec.Ses.descriptor ++ Spec.Ses.descriptor x) := by
    unfold Parse.Ses.textsPart; rw [h]; simp
  rw [e, List.length_append, List.length_append, hx, List.take_append, List.take_of_length_le (by omega), List.take_append, List.take_of_length_le (by omega)]
  congr 3
  omega

theorem cutAt_take {ds before : List Bytes} {room m : Nat} {d : Bytes} (h : CutAt ds room before d m) : ds.flatten.take room = before.flatten ++ d.take m := by
  obtain ⟨⟨after, rfl⟩, rfl, hm⟩ := h
  exact Parse.take_flatten before d after m (by omega)

theorem cutAt_room {ds before : List Bytes} {room m : Nat} {d : Bytes} (h : CutAt ds room before d m) : room < ds.flatten.length := by
  obtain ⟨⟨after, rfl⟩, rfl, hm⟩ := h
  simp only [List.flatten_append, List.flatten_cons, List.length_append]; omega

theorem cutAt_mem {ds before : List Bytes} {room m : Nat} {d : Bytes} (h : CutAt ds room before d m) : (∀ x ∈ before, x ∈ ds) ∧ d ∈ ds := by
  obtain ⟨⟨after, rfl⟩, -, -⟩ := h
  exact ⟨fun x hx => by simp [hx], by simp⟩

theorem take_ne_nil {d : Bytes} {m : Nat} (h0 : 0 < m) (h : m < d.length) : d.take m ≠ [] := ne_nil_of_le 0 (by rw [List.length_take]; omega)

/-- The elements before the cut are read as they are. -/
theorem cut_between {α : Type} (elem : Bytes → Py (α × Nat)) (val : Bytes → α) {ds before : List Bytes} {room : Nat} {d : Bytes} (hc : CutAt ds room before d 0)
    (hne : ∀ d ∈ ds, d ≠ []) (h : ∀ d ∈ ds, ∀ rest, elem (d ++ rest) = .ok (val d, d.length)) :
    Parse.unpackAll elem (ds.flatten.take room) = .ok (before.map val) := by
  have hb := (cutAt_mem hc).1
  rw [cutAt_take hc, List.take_zero, List.append_nil]
  have := Parse.unpackAll_encode elem (fun d : Bytes => d) val before (fun x hx => hne x (hb x hx)) fun x hx => h x (hb x hx)
  rwa [List.flatMap_def, List.map_id'] at this

theorem cut_refused {α : Type} (elem : Bytes → Py (α × Nat)) (val : Bytes → α) {ds before : List Bytes} {room m : Nat} {d : Bytes} (hc : CutAt ds room before d m)
    (h0 : 0 < m) (hne : ∀ d ∈ ds, d ≠ []) (h : ∀ d ∈ ds, ∀ rest, elem (d ++ rest) = .ok (val d, d.length)) (he : elem (d.take m) = .error .truncated) :
    Parse.unpackAll elem (ds.flatten.take room) = .error .truncated := by
  have hb := (cutAt_mem hc).1
  rw [cutAt_take hc]
  have := Parse.unpackAll_error elem (fun d : Bytes => d) val before (d.take m) .truncated (fun x hx => hne x (hb x hx)) (fun x hx => h x (hb x hx))
    (take_ne_nil h0 hc.2.2) he
  rwa [List.flatMap_def, List.map_id'] at this

theorem cut_last {α : Type} (elem : Bytes → Py (α × Nat)) (val : Bytes → α) (y : α) (k : Nat) {ds before : List Bytes} {room m : Nat} {d : Bytes}
    (hc : CutAt ds room before d m) (h0 : 0 < m) (hne : ∀ d ∈ ds, d ≠ []) (h : ∀ d ∈ ds, ∀ rest, elem (d ++ rest) = .ok (val d, d.length))
    (hk : m ≤ k) (he : elem (d.take m) = .ok (y, k)) : Parse.unpackAll elem (ds.flatten.take room) = .ok (before.map val ++ [y]) := by
  have hb := (cutAt_mem hc).1
  rw [cutAt_take hc]
  have := Parse.unpackAll_last elem (fun d : Bytes => d) val before (d.take m) y k (fun x hx => hne x (hb x hx)) (fun x hx => h x (hb x hx))
    (take_ne_nil h0 hc.2.2) (by rw [List.length_take]; omega) he
  rwa [List.flatMap_def, List.map_id'] at this

theorem designators_at {ds : List Bytes} (h : ∀ d ∈ ds, IsDesignator d ∧ TextOk d) (ho : B.lowFirst = true ∨ ∀ d ∈ ds, designatorType d ≠ 3) :
    (∀ d ∈ ds, d ≠ []) ∧ ∀ d ∈ ds, ∀ rest, Parse.designator B (d ++ rest) = .ok (designatorOf B d, d.length) :=
  ⟨fun d hd => ne_nil_of_le 3 (h d hd).1.1, fun d hd rest =>
    Parse.designator_append B d rest _ (Parse.designator_eq B d (h d hd).1 (h d hd).2 (ho.imp_right fun f => f d hd))⟩

theorem groups_at {ds : List Bytes} (h : ∀ d ∈ ds, IsTargetPortGroup d) (hs : B.sg = true → ∀ d ∈ ds, byteAt d 5 < 128 ∧ byteAt d 7 < 128) :
    (∀ d ∈ ds, d ≠ []) ∧ ∀ d ∈ ds, ∀ rest, Parse.targetPortGroup B.sg (d ++ rest) = .ok (groupOf d, d.length) :=
  ⟨fun d hd => ne_nil_of_le 7 (h d hd).2, fun d hd rest => Parse.targetPortGroup_at B.sg d rest (h d hd) fun e => hs e d hd⟩

theorem status_at {ds : List Bytes} (h : ∀ d ∈ ds, IsFullStatus d) :
    (∀ d ∈ ds, d ≠ []) ∧ ∀ d ∈ ds, ∀ rest, Parse.fullStatus B.sg (d ++ rest) = .ok (statusOf d d.length, d.length) :=
  ⟨fun d hd => ne_nil_of_le 24 (h d hd).2, fun d hd rest => by
    rw [Parse.fullStatus_at B.sg d rest (h d hd), statusOf, List.take_length]; rfl⟩

theorem identification_length (first : UInt8) (ds : List Bytes) : (Spec.deviceIdentification first ds).length = 4 + ds.flatten.length := by
  simp [Spec.deviceIdentification]; omega

theorem rtpg_length (ds : List Bytes) : (rtpgLengthOnly ds).length = 4 + ds.flatten.length := by simp only [rtpgLengthOnly, List.length_append, be_length]

theorem status_length (generation : Nat) (ds : List Bytes) : (readFullStatus generation ds).length = 8 + ds.flatten.length := by
  simp only [readFullStatus, List.length_append, be_length]

theorem peripheral_take (b : Bytes) (n : Nat) (h : 1 ≤ n) : peripheral (b.take n) = peripheral b := by
  simp (disch := omega) only [peripheral, bitsAt, Parse.byteAt_take]

theorem vpdHeader_take (b : Bytes) (n : Nat) (h : 4 ≤ n) : vpdHeader (b.take n) = vpdHeader b := by
  simp (disch := omega) only [vpdHeader, Parse.byteAt_take, Parse.num_take]

theorem vpdHeaderShort_take (b : Bytes) (n : Nat) (h : 4 ≤ n) : vpdHeaderShort (b.take n) = vpdHeaderShort b := by
  simp (disch := omega) only [vpdHeaderShort, Parse.byteAt_take]

theorem blockLimits_take (b : Bytes) (n : Nat) (h : 44 ≤ n) : blockLimits (b.take n) = blockLimits b := by
  simp (disch := omega) only [blockLimits, bitAt, Parse.byteAt_take, Parse.num_take]

theorem alignment_take (b : Bytes) (n : Nat) (h : 44 ≤ n) : unmapGranularityAlignment (b.take n) = unmapGranularityAlignment b := by
  simp (disch := omega) only [unmapGranularityAlignment, Parse.num_take]

theorem veritas_take (b : Bytes) (n : Nat) (h : 6 ≤ n) : Spec.veritas (b.take n) = Spec.veritas b := by
  simp (disch := omega) only [Spec.veritas, bitAt, Parse.byteAt_take, Parse.num_take]

theorem cut (hP : Passes tail out) {c : Cmd} {p : Told} (h : Cuts B t c p) : Reports t out L B other c p := by
  cases h with
  | @supported b h1 h2 h3 =>
    refine cut_vpd L B other hP 0 (by decide) 252 rfl (by decide) b h1 (by omega) _ (shows_incomplete ?_)
    show (Parse.supportedPages B (b.take 252)).map Result.bytes = _
    rw [Parse.C44_supported_short B _ (by rw [List.length_take]; omega) (by rw [List.length_take, Parse.byteAt_take _ _ _ (by omega)]; omega)]
    rfl
  | @serial b h1 h2 h3 h4 =>
    refine cut_vpd L B other hP 0x80 (by decide) 252 rfl (by decide) b h1 (by omega) _ (shows_ok _ ?_ rfl)
    have hd : ((b.take 252).drop 4).take (byteAt (b.take 252) 3) = (b.drop 4).take 248 := by
      rw [Parse.byteAt_take _ _ _ (by omega), List.take_of_length_le (by simp; omega), List.drop_take]
    show (Parse.unitSerial B (b.take 252)).map Result.serial = _
    rw [Parse.C44_serial B _ (by rw [List.length_take]; omega) (by rw [hd]; exact Parse.ascii_take _ _ h4), hd, peripheral_take _ _ (by decide),
      vpdHeaderShort_take _ _ (by decide)]
    rfl
  | @identificationBetween first ds before d h1 h2 h3 h4 h5 =>
    obtain ⟨e1, e2⟩ := designators_at B h3 h4
    refine cut_vpd L B other hP 0x83 (by decide) 252 rfl (by decide) _ h1 (by rw [identification_length]; have := cutAt_room h2; omega) _ (shows_ok _ ?_ rfl)
    show (Parse.deviceIdentification B _).map Result.designators = _
    rw [Parse.deviceIdentification_cut B first ds 252 h5 (by decide), cut_between (Parse.designator B) (designatorOf B) h2 e1 e2]
    rfl
  | @identificationRefused first ds before d m h1 h2 h3 h4 h5 h6 h7 =>
    obtain ⟨e1, e2⟩ := designators_at B h5 h6
    refine cut_vpd L B other hP 0x83 (by decide) 252 rfl (by decide) _ h1 (by rw [identification_length]; have := cutAt_room h2; omega) _ (shows_incomplete ?_)
    show (Parse.deviceIdentification B _).map Result.designators = _
    rw [Parse.deviceIdentification_cut B first ds 252 h7 (by decide), cut_refused (Parse.designator B) (designatorOf B) h2 h3 e1 e2
      (Parse.designator_cut_refused B d m (h5 d (cutAt_mem h2).2).1 h2.2.2 h4)]
    rfl
  | @identificationText first ds before d m h1 h2 h3 h4 h5 h6 h7 =>
    obtain ⟨e1, e2⟩ := designators_at B h5 h6
    obtain ⟨k, e3, e4⟩ := Parse.designator_cut B d m (h5 d (cutAt_mem h2).2).1 (h5 d (cutAt_mem h2).2).2 h3 h2.2.2 h4
    refine cut_vpd L B other hP 0x83 (by decide) 252 rfl (by decide) _ h1 (by rw [identification_length]; have := cutAt_room h2; omega) _ (shows_ok _ ?_ rfl)
    show (Parse.deviceIdentification B _).map Result.designators = _
    rw [Parse.deviceIdentification_cut B first ds 252 h7 (by decide), cut_last (Parse.designator B) (designatorOf B) _ k h2 (by omega) e1 e2 e3 e4]
    rfl
  | @limits b h1 h2 =>
    obtain ⟨a, e1, e2⟩ := Parse.C44_block_limits B (b.take 252) (by rw [List.length_take]; omega)
    refine cut_vpd L B other hP 0xb0 (by decide) 252 rfl (by decide) b h1 (by omega) _ (shows_ok _ ?_ ⟨a, rfl, ?_⟩)
    · show (Parse.blockLimits B (b.take 252)).map Result.page = _
      rw [e1, peripheral_take _ _ (by decide), blockLimits_take _ _ (by decide)]
      rfl
    · rw [alignment_take _ _ (by decide)] at e2; exact e2
  | @provisioning b d h1 h2 h3 h4 h5 =>
    obtain ⟨k, e3, e4⟩ := Parse.designator_cut B d 244 h4 h5 (by decide) (by omega) (by
      intro ht
      obtain ⟨-, hl, hs⟩ := h4
      unfold DesignatorSize at hs
      generalize designatorType d = T at hs ht
      match T, ht with
      | 2, _ => simp only at hs; omega
      | 3, _ => simp only at hs; omega
      | 4, _ => simp only at hs; omega
      | 5, _ => simp only at hs; omega
      | 6, _ => simp only at hs; omega)
    refine cut_vpd L B other hP 0xb2 (by decide) 252 rfl (by decide) _ h1 (by rw [List.length_append]; omega) _ (shows_ok _ ?_ rfl)
    have ht : (b ++ d).take 252 = b ++ d.take 244 := by rw [List.take_append, List.take_of_length_le (by omega), h2]
    show (Parse.provisioning B ((b ++ d).take 252)).map Result.provisioning = _
    rw [ht]
    unfold Parse.provisioning
    rw [Parse.fixedPage_append B _ _ b _ _ (Parse.provisioning_page B b h2)]
    simp only [bind, Except.bind]
    rw [if_pos (by simp; omega), ← h2, List.drop_left, e4]
    rfl
  | @veritas b h1 h2 =>
    refine cut_vpd L B other hP 0xc0 (by decide) 252 rfl (by decide) b h1 (by omega) _ (shows_ok _ ?_ rfl)
    show (Parse.veritas B (b.take 252)).map Result.page = _
    rw [Parse.C44_veritas B _ (by rw [List.length_take]; omega), peripheral_take _ _ (by decide), veritas_take _ _ (by decide)]
    rfl
  | @otherPage p b hp hs h1 h2 h3 =>
    have hc := (C50_vpd_classes p).2.2.2.2.2.2.2 (by
      simp only [List.mem_cons, List.not_mem_nil, or_false] at hs
      simp only [SpecialVpd]
      omega)
    refine cut_vpd L B other hP p hp 2048 (by rw [hc.1]; rfl) (by decide) b h1 (by omega) _ (shows_ok _ ?_ rfl)
    have hd : ((b.take 2048).drop 4).take (num (b.take 2048) 2 2) = (b.drop 4).take 2044 := by
      rw [Parse.num_take _ _ _ _ (by omega), List.take_of_length_le (by simp; omega), List.drop_take]
    rw [hc.2]
    show (Parse.unknownPage B (b.take 2048)).map Result.bytes = _
    rw [Parse.C44_unknown B _ (by rw [List.length_take]; omega), peripheral_take _ _ (by decide), vpdHeader_take _ _ (by decide), hd]
    rfl
  | @rawLuns select n allow b h1 h2 h3 h4 h5 =>
    refine reports_cut L B other hP _ _ b n _ ⟨⟨by omega, by omega⟩, ⟨by omega, by omega⟩⟩
      (Cdb.C36_report_luns L select n ⟨by omega, by omega⟩ ⟨by omega, by omega⟩) (by simp [Cmd.cdb, meaning, report, h4]) h2 h5 (shows_ok _ ?_ rfl)
    simp only [Cmd.decode, Parse.reportLuns]
    rw [if_neg (by omega)]
    have : ((b.take n).length : Int) = n := by rw [List.length_take]; omega
    simp only [Option.getD_some, this, decide_true, pyAssert, bind, Except.bind, Except.map, if_true]
  | @groupsHeader n groups h1 h2 h3 =>
    refine cut_rtpg L B other hP n h1 (by omega) _ h3 (by rw [rtpg_length]; omega) _ (shows_incomplete ?_)
    rw [Parse.rtpg_short B.sg _ (by rw [List.length_take]; omega)]
    rfl
  | @groupsBetween n groups before d h1 h2 h3 h4 h5 h6 h7 =>
    obtain ⟨e1, e2⟩ := groups_at B h5 h6
    refine cut_rtpg L B other hP n (by omega) h2 _ h3 (by rw [rtpg_length]; have := cutAt_room h4; omega) _ (shows_ok _ ?_ rfl)
    rw [Parse.rtpg_cut B.sg groups n h7 h1, cut_between (Parse.targetPortGroup B.sg) groupOf h4 e1 e2]
    rfl
  | @groupsRefused n m groups before d h1 h2 h3 h4 h5 h6 h7 h8 =>
    obtain ⟨e1, e2⟩ := groups_at B h6 h7
    have hm := (cutAt_mem h4).2
    refine cut_rtpg L B other hP n (by omega) h2 _ h3 (by rw [rtpg_length]; have := cutAt_room h4; omega) _ (shows_incomplete ?_)
    rw [Parse.rtpg_cut B.sg groups n h8 h1, cut_refused (Parse.targetPortGroup B.sg) groupOf h4 h5 e1 e2
      (Parse.targetPortGroup_cut B.sg d m (h6 d hm) (fun e => h7 e d hm) h4.2.2)]
    rfl
  | @copyHeader n b h1 h2 h3 h4 =>
    refine cut_copy L B other hP n h1 (by omega) b h3 (by omega) _ (shows_incomplete ?_)
    rw [Parse.receiveCopy_short B.sg _ (by rw [List.length_take]; omega)]
    rfl
  | @copyList n b h1 h2 h3 h4 =>
    have : byteAt b 43 < 256 := byte_lt _
    refine cut_copy L B other hP n (by omega) (by omega) b h3 (by omega) _ (shows_ok _ ?_ rfl)
    rw [Parse.receiveCopy_cut B.sg b n h4 h1]
    rfl
  | @reservationHeader n b h1 h2 h3 h4 =>
    refine cut_prin L B other hP 1 n (by decide) h1 (by omega) b h3 (by omega) _ (shows_ok _ ?_ rfl)
    rw [show ((1 : Nat) : Int) = 1 from rfl, Parse.C35_no_reservation B.sg _ (by rw [List.length_take]; omega) (by rw [List.length_take]; omega)]
    simp only [prHeader, Parse.num_take b n 0 4 (by omega), Parse.num_take b n 4 4 (by omega)]
    rfl
  | @reservationKey n b h1 h2 h3 h4 =>
    refine cut_prin L B other hP 1 n (by decide) (by omega) (by omega) b h3 (by omega) _ (shows_ok _ ?_ rfl)
    rw [show ((1 : Nat) : Int) = 1 from rfl, (Parse.readReservation_cut B.sg b n h4).1 h1 h2]
    rfl
  | @reservationObsolete b h1 h2 =>
    refine cut_prin L B other hP 1 20 (by decide) (by omega) (by omega) b h1 (by omega) _ (shows_ok _ ?_ rfl)
    rw [show ((1 : Nat) : Int) = 1 from rfl, (Parse.readReservation_cut B.sg b 20 h2).2.1 rfl]
    rfl
  | @reservationRefused b h1 h2 =>
    refine cut_prin L B other hP 1 21 (by decide) (by omega) (by omega) b h1 (by omega) _ (shows_incomplete ?_)
    rw [show ((1 : Nat) : Int) = 1 from rfl, (Parse.readReservation_cut B.sg b 21 h2).2.2.1 rfl]
    rfl
  | @reservationType n b h1 h2 h3 h4 =>
    refine cut_prin L B other hP 1 n (by decide) (by omega) (by omega) b h3 (by omega) _ (shows_ok _ ?_ rfl)
    rw [show ((1 : Nat) : Int) = 1 from rfl, (Parse.readReservation_cut B.sg b n h4).2.2.2 h1 h2]
    rfl
  | @statusBetween n generation ds before d h1 h2 h3 h4 h5 h6 h7 =>
    obtain ⟨e1, e2⟩ := status_at B h6
    have hr := cutAt_room h5
    refine cut_prin L B other hP 3 n (by decide) h1 h2 _ h3 (by rw [status_length]; omega) _ (shows_ok _ ?_ rfl)
    rw [show ((3 : Nat) : Int) = 3 from rfl, Parse.readFullStatus_cut B.sg generation ds n h4 h7 (by omega) h1,
      cut_between (Parse.fullStatus B.sg) _ h5 e1 e2]
    rfl
  | @statusRefused n m generation ds before d h1 h2 h3 h4 h5 h6 h7 h8 h9 =>
    obtain ⟨e1, e2⟩ := status_at B h8
    have hr := cutAt_room h5
    refine cut_prin L B other hP 3 n (by decide) h1 h2 _ h3 (by rw [status_length]; omega) _ (shows_incomplete ?_)
    rw [show ((3 : Nat) : Int) = 3 from rfl, Parse.readFullStatus_cut B.sg generation ds n h4 h9 (by omega) h1,
      cut_refused (Parse.fullStatus B.sg) _ h5 h6 e1 e2 (Parse.fullStatus_refused B.sg d m (h8 d (cutAt_mem h5).2) h7)]
    rfl
  | @statusTransport n m generation ds before d h1 h2 h3 h4 h5 h6 h7 h8 =>
    obtain ⟨e1, e2⟩ := status_at B h7
    have hr := cutAt_room h5
    refine cut_prin L B other hP 3 n (by decide) h1 h2 _ h3 (by rw [status_length]; omega) _ (shows_ok _ ?_ rfl)
    rw [show ((3 : Nat) : Int) = 3 from rfl, Parse.readFullStatus_cut B.sg generation ds n h4 h8 (by omega) h1,
      cut_last (Parse.fullStatus B.sg) _ _ d.length h5 (by omega) e1 e2 (by have := h5.2.2; omega)
        (Parse.fullStatus_cut B.sg d m (h7 d (cutAt_mem h5).2) h6 (by have := h5.2.2; omega))]
    rfl
  | @diagnosticPages p b h1 h2 h3 =>
    have ha : (getSesPage p).args.2.1 = (255 : Nat) := by rcases h1 with rfl | rfl <;> rfl
    have hd : ∀ b, unpackSes B other none b (getSesPageData p) = (Parse.Ses.bytesPage B b).map .diagnosticBytes := by
      intro b; rcases h1 with rfl | rfl <;> rfl
    obtain ⟨hi, hm, cdb, hr⟩ := ses_request L p (by omega) 255 ha none
    refine reports_cut L B other hP _ cdb b 255 _ hi hr (by rw [hm]; simp [report, h2]) (by decide) (by omega) (shows_ok _ ?_ rfl)
    have := (C50_ses L B other p none).2.2 (b.take 255)
    simp only [Cmd.command, Option.getD_some] at this
    rw [this, hd, Parse.Ses.C58_bytes_partial B _ (by rw [List.length_take]; omega), Parse.byteAt_take _ _ _ (by omega), Parse.num_take _ _ _ _ (by omega)]
    rfl
  | @configurationTexts generation es ts h1 h2 h3 h4 h5 =>
    refine cut_ses L B other hP 1 (by decide) 65535 rfl (by decide) none _ h1 (by omega) _ (shows_ok _ ?_ rfl)
    show (Parse.Ses.configuration B _).map Result.configuration = _
    rw [Parse.Ses.configuration_cut_texts B generation es ts 65535 h2 h3 h5]
    rfl
  | @configurationRefused generation es ts h1 h2 h3 h4 h5 =>
    have hl := Parse.Ses.configuration_length generation es ts
    have hp := h2.page
    have hn : 0 < ts.length := List.length_pos_iff.2 h4
    refine cut_ses L B other hP 1 (by decide) 65535 rfl (by decide) none _ h1 (by omega) _ (shows_incomplete ?_)
    show (Parse.Ses.configuration B _).map Result.configuration = _
    rw [Parse.Ses.configuration_cut_headers B generation es ts 65535 h2 h3 (by omega) h5]
    rfl
  | @configurationEnclosure generation init e h1 h2 h3 h4 =>
    have hl := Parse.Ses.configuration_length generation (init ++ [e]) []
    have hp := h2.page
    have he := (h2.each e (by simp)).1
    have hf : (init ++ [e]).flatten.length = init.flatten.length + e.length := by rw [List.flatten_append, List.length_append]; simp
    simp only [List.flatMap_nil, List.length_nil] at hl
    refine cut_ses L B other hP 1 (by decide) 65535 rfl (by decide) none _ h1 (by omega) _ (shows_ok _ ?_ rfl)
    show (Parse.Ses.configuration B _).map Result.configuration = _
    rw [Parse.Ses.configuration_cut_enclosure B generation init e 65535 h2 h3 (by omega) (by omega)]
    rfl
  | @statusLast g generation es flags front s init e h1 h2 h3 =>
    have he : e.length = 4 := (h1.each s (by simp)).2.1 e (by simp [h2])
    refine cut_status L B other hP h1 _ (shows_ok _ ?_ rfl)
    have hpart : Parse.Ses.statusPart s = s.overall ++ (init.flatten ++ e) := by unfold Parse.Ses.statusPart; rw [h2]; simp
    rw [hpart, List.length_append, List.length_append, List.take_append, List.take_of_length_le (by omega), List.take_append, List.take_of_length_le (by omega),
      show s.overall.length + (init.flatten.length + e.length) - 1 - s.overall.length - init.flatten.length = 3 by omega,
      Parse.Ses.statusDescriptor_cut B s init e _ (h1.each s (by simp)) (fun hb => (h1.small hb).possible s.type (List.mem_map.2 ⟨s, by simp, rfl⟩)) h2,
      Parse.Ses.element_cut B _ e he h3, ← elementOf_full,
      ← show elementOf B 3 s.type.code.toNat = Parse.Ses.elementObject B s.type.code.toNat from funext fun e => elementOf_full B e _]
    rfl
  | @statusLastRefused g generation es flags front s h1 h2 h3 =>
    obtain ⟨init, e, h2⟩ : ∃ init e, s.elements = init ++ [e] := ⟨_, _, (List.dropLast_concat_getLast h2).symm⟩
    have he : e.length = 4 := (h1.each s (by simp)).2.1 e (by simp [h2])
    refine cut_status L B other hP h1 _ (shows_incomplete ?_)
    have hpart : Parse.Ses.statusPart s = s.overall ++ (init.flatten ++ e) := by unfold Parse.Ses.statusPart; rw [h2]; simp
    rw [hpart, List.length_append, List.length_append, List.take_append, List.take_of_length_le (by omega), List.take_append, List.take_of_length_le (by omega),
      show s.overall.length + (init.flatten.length + e.length) - 1 - s.overall.length - init.flatten.length = 3 by omega,
      Parse.Ses.statusDescriptor_cut B s init e _ (h1.each s (by simp)) (fun hb => (h1.small hb).possible s.type (List.mem_map.2 ⟨s, by simp, rfl⟩)) h2,
      Parse.Ses.element_short B _ e he h3]
    rfl
  | @statusLastOverall g generation es flags front s h1 h2 =>
    have ho := (h1.each s (by simp)).1
    refine cut_status L B other hP h1 _ (shows_ok _ ?_ rfl)
    have hpart : Parse.Ses.statusPart s = s.overall := by unfold Parse.Ses.statusPart; rw [h2]; simp
    rw [hpart, ho, Parse.Ses.statusDescriptor_cut_overall B s (h1.each s (by simp)) (fun hb => (h1.small hb).possible s.type (List.mem_map.2 ⟨s, by simp, rfl⟩)) h2]
    rfl
  | @textsLast g generation c es front s init x h1 h2 h3 =>
    have hx := h1.texts s (by simp) x (by simp [h2])
    refine cut_texts L B other hP h1 _ (shows_ok _ ?_ rfl)
    rw [texts_take s init x c h2 h1.announced,
      Parse.Ses.elementDescriptor_cut B s init x _ (h1.each s (by simp)) (fun hb => (h1.small hb).possible s.type (List.mem_map.2 ⟨s, by simp, rfl⟩))
        (h1.texts s (by simp)) h2, Parse.Ses.descriptor_cut B x _ hx.1 hx.2 (by omega), show x.length + 4 - c - 4 = x.length - c by omega]
    rfl
  | @textsLastRefused g generation c es front s init x h1 h2 h3 =>
    refine cut_texts L B other hP h1 _ (shows_incomplete ?_)
    rw [texts_take s init x c h2 h1.announced,
      Parse.Ses.elementDescriptor_cut B s init x _ (h1.each s (by simp)) (fun hb => (h1.small hb).possible s.type (List.mem_map.2 ⟨s, by simp, rfl⟩))
        (h1.texts s (by simp)) h2, Parse.Ses.descriptor_short B x _ (by omega)]
    rfl
  | @textsOverall g generation c es front s h1 h2 h3 =>
    have hx := h1.texts s (by simp) s.overall (by simp)
    refine cut_texts L B other hP h1 _ (shows_ok _ ?_ rfl)
    have hpart : Parse.Ses.textsPart s = Spec.Ses.descriptor s.overall := by unfold Parse.Ses.textsPart; rw [h2]; simp
    have hl : (Spec.Ses.descriptor s.overall).length = s.overall.length + 4 := by simp [Spec.Ses.descriptor]; omega
    rw [hpart, hl, Parse.Ses.elementDescriptor_cut_overall B s _ (h1.each s (by simp))
      (fun hb => (h1.small hb).possible s.type (List.mem_map.2 ⟨s, by simp, rfl⟩)) h2, Parse.Ses.descriptor_cut B _ _ hx.1 hx.2 (by omega),
      show s.overall.length + 4 - c - 4 = s.overall.length - c by omega]
    rfl
  | @textsOverallRefused g generation c es front s h1 h2 h3 =>
    refine cut_texts L B other hP h1 _ (shows_incomplete ?_)
    have hpart : Parse.Ses.textsPart s = Spec.Ses.descriptor s.overall := by unfold Parse.Ses.textsPart; rw [h2]; simp
    have hl : (Spec.Ses.descriptor s.overall).length = s.overall.length + 4 := by simp [Spec.Ses.descriptor]; omega
    rw [hpart, hl, Parse.Ses.elementDescriptor_cut_overall B s _ (h1.each s (by simp))
      (fun hb => (h1.small hb).possible s.type (List.mem_map.2 ⟨s, by simp, rfl⟩)) h2, Parse.Ses.descriptor_short B _ _ (by omega)]
    rfl

theorem cut_filled (hP : Passes Filled out) {c : Cmd} {p : Told} (h : TellsFilled B t c p ∨ Cuts B t c p) : Reports t out L B other c p :=
  h.elim (reports_filled L B other hP) (cut L B other hP)

theorem cut_exactly (hP : Passes Exactly out) {c : Cmd} {p : Told} (h : TellsExactly B t c p ∨ Cuts B t c p) : Reports t out L B other c p :=
  h.elim (reports_exactly L B other hP) (cut L B other hP)

end step

/-! ## Every response either fits or is cut -/

/-- Where a list of descriptors is cut. -/
theorem cutAt_exists : ∀ (ds : List Bytes) (room : Nat), room < ds.flatten.length → ∃ before d m, CutAt ds room before d m
  | [], room, h => absurd h (by simp)
  | d :: ds, room, h => by
    by_cases hd : room < d.length
    · exact ⟨[], d, room, ⟨ds, rfl⟩, by simp, hd⟩
    · rw [List.flatten_cons, List.length_append] at h
      obtain ⟨before, e, m, ⟨after, h1⟩, h2, h3⟩ := cutAt_exists ds (room - d.length) (by omega)
      refine ⟨d :: before, e, m, ⟨after, by rw [h1]; rfl⟩, ?_, h3⟩
      rw [List.flatten_cons, List.length_append]; omega

/-- **C81, nothing is left out**: whatever the target holds, and however long it is, and whatever allocation length the caller gives, `Tells` (C62) or
`Cuts` says what the caller is told. -/
theorem C81_covers (B : Parse.BufLib) (t : Target) :
    (∀ first ds, t.vpd 0x83 = some (Spec.deviceIdentification first ds) → (∀ d ∈ ds, IsDesignator d ∧ TextOk d) →
      (B.lowFirst = true ∨ ∀ d ∈ ds, designatorType d ≠ 3) → ds.flatten.length < 2 ^ 16 →
      ∃ p, Tells B t (.vpd (getVpdPage 0x83)) p ∨ Cuts B t (.vpd (getVpdPage 0x83)) p) ∧
    (∀ b, t.vpd 0x80 = some b → 4 ≤ b.length → b.length = 4 + byteAt b 3 → Ascii (b.drop 4) →
      ∃ p, Tells B t (.vpd (getVpdPage 0x80)) p ∨ Cuts B t (.vpd (getVpdPage 0x80)) p) ∧
    (∀ b, t.vpd 0x00 = some b → 4 ≤ b.length → b.length = 4 + byteAt b 3 →
      ∃ p, Tells B t (.vpd (getVpdPage 0x00)) p ∨ Cuts B t (.vpd (getVpdPage 0x00)) p) ∧
    (∀ (n : Nat) groups, 0 < n → n < 2 ^ 32 → t.groups 0 = some (rtpgLengthOnly groups) → (∀ d ∈ groups, IsTargetPortGroup d) →
      (B.sg = true → ∀ d ∈ groups, byteAt d 5 < 128 ∧ byteAt d 7 < 128) → groups.flatten.length < 2 ^ 31 →
      ∃ p, Tells B t (.rtpg 0 n) p ∨ Cuts B t (.rtpg 0 n) p) ∧
    (∀ (n : Nat) b, 0 < n → n < 2 ^ 32 → t.copy = some b → 44 ≤ b.length → b.length = 44 + byteAt b 43 →
      ∃ p, Tells B t (.receiveCopy n 0) p ∨ Cuts B t (.receiveCopy n 0) p) ∧
    (∀ (n : Nat) b, 8 ≤ n → n < 2 ^ 16 → t.reservations 1 = some b → b.length = 24 →
      ∃ p, Tells B t (.persistentReserveIn 1 n) p ∨ Cuts B t (.persistentReserveIn 1 n) p) ∧
    (∀ (n generation : Nat) ds, 8 ≤ n → n < 2 ^ 16 → t.reservations 3 = some (readFullStatus generation ds) → generation < 2 ^ 32 →
      (∀ d ∈ ds, IsFullStatus d) → ds.flatten.length < 2 ^ 32 →
      ∃ p, Tells B t (.persistentReserveIn 3 n) p ∨ Cuts B t (.persistentReserveIn 3 n) p) ∧
    (∀ generation es ts, t.diagnostic 1 = some (Spec.Ses.configuration generation es ts) → Spec.Ses.IsConfiguration generation es ts →
      (B.sg = true → Spec.Ses.Small es ts) → ∃ p, Tells B t (.ses (getSesPage 1) none) p ∨ Cuts B t (.ses (getSesPage 1) none) p) ∧
    (∀ g es flags generation (ss : List Spec.Ses.TypeStatus), t.diagnostic 2 = some (Spec.Ses.enclosureStatus flags generation ss) →
      Spec.Ses.IsConfiguration g es (ss.map (·.type)) → (B.sg = true → Spec.Ses.Small es (ss.map (·.type))) → (∀ s ∈ ss, s.Ok) → generation < 2 ^ 32 →
      (Spec.Ses.enclosureStatus flags generation ss).length < 4 + 2 ^ 16 →
      ∃ p, Tells B t (.ses (getSesPage 2) (some (configurationOf B g es (ss.map (·.type))))) p ∨
        Cuts B t (.ses (getSesPage 2) (some (configurationOf B g es (ss.map (·.type))))) p) ∧
    (∀ g es generation (ss : List Spec.Ses.TypeTexts), t.diagnostic 7 = some (Spec.Ses.elementDescriptors generation ss) →
      Spec.Ses.IsConfiguration g es (ss.map (·.type)) → (B.sg = true → Spec.Ses.Small es (ss.map (·.type))) → (∀ s ∈ ss, s.Ok) →
      (∀ s ∈ ss, ∀ t ∈ s.overall :: s.elements, t.length < 2 ^ 16 ∧ (B.sg = true → t.length < 2 ^ 15)) → generation < 2 ^ 32 →
      (Spec.Ses.elementDescriptors generation ss).length < 4 + 2 ^ 16 →
      ∃ p, Tells B t (.ses (getSesPage 7) (some (configurationOf B g es (ss.map (·.type))))) p ∨
        Cuts B t (.ses (getSesPage 7) (some (configurationOf B g es (ss.map (·.type))))) p) := by
  refine ⟨?_, ?_, ?_, ?_, ?_, ?_, ?_, ?_, ?_, ?_⟩
  · intro first ds h1 h2 h3 h4
    by_cases h : ds.flatten.length ≤ 248
    · exact ⟨_, .inl (.identification h1 h2 h3 h)⟩
    · obtain ⟨before, d, m, hc⟩ := cutAt_exists ds 248 (by omega)
      by_cases h0 : m = 0
      · subst h0; exact ⟨_, .inr (.identificationBetween h1 hc h2 h3 h4)⟩
      · by_cases h5 : m < 4 ∨ 2 ≤ designatorType d ∧ designatorType d ≤ 6
        · exact ⟨_, .inr (.identificationRefused h1 hc (by omega) h5 h2 h3 h4)⟩
        · exact ⟨_, .inr (.identificationText h1 hc (by omega) (fun h => h5 (.inr h)) h2 h3 h4)⟩
  · intro b h1 h2 h3 h4
    by_cases h : b.length ≤ 252
    · exact ⟨_, .inl (.serial h1 h2 h3 h h4)⟩
    · exact ⟨_, .inr (.serial h1 h3 (by omega) h4)⟩
  · intro b h1 h2 h3
    by_cases h : b.length ≤ 252
    · exact ⟨_, .inl (.supported h1 h2 h3 h)⟩
    · exact ⟨_, .inr (.supported h1 h3 (by omega))⟩
  · intro n groups h0 h1 h2 h3 h4 h5
    by_cases h : 4 + groups.flatten.length ≤ n
    · exact ⟨_, .inl (.groups h1 h2 h3 h4 h5 h)⟩
    · by_cases hn : n < 4
      · exact ⟨_, .inr (.groupsHeader h0 hn h2)⟩
      · obtain ⟨before, d, m, hc⟩ := cutAt_exists groups (n - 4) (by omega)
        by_cases hm : m = 0
        · subst hm; exact ⟨_, .inr (.groupsBetween (by omega) h1 h2 hc h3 h4 h5)⟩
        · exact ⟨_, .inr (.groupsRefused (by omega) h1 h2 hc (by omega) h3 h4 h5)⟩
  · intro n b h0 h1 h2 h3 h4
    by_cases h : b.length ≤ n
    · exact ⟨_, .inl (.copy h1 h2 h3 h4 h)⟩
    · by_cases hn : n < 44
      · exact ⟨_, .inr (.copyHeader h0 hn h2 h3)⟩
      · exact ⟨_, .inr (.copyList (by omega) (by omega) h2 h4)⟩
  · intro n b h0 h1 h2 h3
    by_cases e1 : n < 16
    · exact ⟨_, .inr (.reservationHeader h0 e1 h2 h3)⟩
    by_cases e2 : n < 20
    · exact ⟨_, .inr (.reservationKey (by omega) e2 h2 h3)⟩
    by_cases e3 : n = 20
    · subst e3; exact ⟨_, .inr (.reservationObsolete h2 h3)⟩
    by_cases e4 : n = 21
    · subst e4; exact ⟨_, .inr (.reservationRefused h2 h3)⟩
    by_cases e5 : n < 24
    · exact ⟨_, .inr (.reservationType (by omega) e5 h2 h3)⟩
    · exact ⟨_, .inl (.reservation h1 h2 h3 (by omega))⟩
  · intro n generation ds h0 h1 h2 h3 h4 h5
    by_cases h : 8 + ds.flatten.length ≤ n
    · by_cases hd : ds = []
      · subst hd; exact ⟨_, .inl (.noStatus h0 h1 h2 h3)⟩
      · exact ⟨_, .inl (.fullStatus h1 h2 h3 h4 hd h)⟩
    · obtain ⟨before, d, m, hc⟩ := cutAt_exists ds (n - 8) (by omega)
      by_cases hm : m = 0
      · subst hm; exact ⟨_, .inr (.statusBetween h0 h1 h2 h3 hc h4 h5)⟩
      by_cases hk : m < 25
      · exact ⟨_, .inr (.statusRefused h0 h1 h2 h3 hc (by omega) hk h4 h5)⟩
      · exact ⟨_, .inr (.statusTransport h0 h1 h2 h3 hc (by omega) h4 h5)⟩
  · intro generation es ts h1 h2 h3
    by_cases h : (Spec.Ses.configuration generation es ts).length ≤ 65535
    · exact ⟨_, .inl (.configuration h1 h2 h3 h)⟩
    by_cases ha : 8 + es.flatten.length + 4 * ts.length ≤ 65535
    · exact ⟨_, .inr (.configurationTexts h1 h2 h3 (by omega) ha)⟩
    by_cases hb : ts = []
    · subst hb
      obtain ⟨init, e, rfl⟩ : ∃ init e, es = init ++ [e] := ⟨_, _, (List.dropLast_concat_getLast h2.nonempty).symm⟩
      exact ⟨_, .inr (.configurationEnclosure h1 h2 h3 (by omega))⟩
    · exact ⟨_, .inr (.configurationRefused h1 h2 h3 hb (by omega))⟩
  · intro g es flags generation ss h1 h2 h3 h4 h5 h6
    by_cases h : (Spec.Ses.enclosureStatus flags generation ss).length ≤ 65535
    · exact ⟨_, .inl (.status h1 h2 h3 h4 h5 h)⟩
    obtain ⟨e1, e2⟩ := Parse.Ses.status_length flags generation ss h4
    have hl : LongStatus B t g es flags generation ss := ⟨h1, h2, h3, h4, h5, by omega⟩
    have hne : ss ≠ [] := by rintro rfl; simp at e1; omega
    obtain ⟨front, s, rfl⟩ : ∃ front s, ss = front ++ [s] := ⟨_, _, (List.dropLast_concat_getLast hne).symm⟩
    by_cases he : s.elements = []
    · exact ⟨_, .inr (.statusLastOverall hl he)⟩
    by_cases hu : Parse.Ses.UsesLast s.type.code.toNat
    · exact ⟨_, .inr (.statusLastRefused hl he hu)⟩
    · exact ⟨_, .inr (.statusLast hl (List.dropLast_concat_getLast he).symm hu)⟩
  · intro g es generation ss h1 h2 h3 h4 h5 h6 h7
    by_cases h : (Spec.Ses.elementDescriptors generation ss).length ≤ 65535
    · exact ⟨_, .inl (.descriptors h1 h2 h3 h4 h5 h6 h)⟩
    have e1 := Parse.Ses.descriptors_length generation ss
    have hl : LongTexts B t g es generation ss ((Spec.Ses.elementDescriptors generation ss).length - 65535) :=
      ⟨h1, h2, h3, h4, h5, h6, by omega, by omega, by omega⟩
    have hne : ss ≠ [] := by rintro rfl; simp at e1; omega
    obtain ⟨front, s, rfl⟩ : ∃ front s, ss = front ++ [s] := ⟨_, _, (List.dropLast_concat_getLast hne).symm⟩
    by_cases he : s.elements = []
    · by_cases hx : s.overall.length < (Spec.Ses.elementDescriptors generation (front ++ [s])).length - 65535
      · exact ⟨_, .inr (.textsOverallRefused hl he hx)⟩
      · exact ⟨_, .inr (.textsOverall hl he (by omega))⟩
    obtain ⟨init, x, he⟩ : ∃ init x, s.elements = init ++ [x] := ⟨_, _, (List.dropLast_concat_getLast he).symm⟩
    by_cases hx : x.length < (Spec.Ses.elementDescriptors generation (front ++ [s])).length - 65535
    · exact ⟨_, .inr (.textsLastRefused hl he hx)⟩
    · exact ⟨_, .inr (.textsLast hl he (by omega))⟩

/-- A type with `n` elements that all have the status 1. -/
def exampleType (code n : UInt8) : Spec.Ses.TypeStatus := ⟨⟨code, n, 0, []⟩, [1, 0, 0, 0], List.replicate n.toNat [1, 0, 0, 0]⟩

/-- A configuration whose status page has 65536 bytes: 127 types with 127 array device slots, and a last type with 125 elements. -/
theorem example_long (B : Parse.BufLib) (code : UInt8) (t : Target) :
    let ss := List.replicate 127 (exampleType 0x17 127) ++ [exampleType code 125]
    LongStatus B { t with diagnostic := fun p => if p = 2 then some (Spec.Ses.enclosureStatus 0 7 ss) else none } 7
      [Parse.Ses.exampleEnclosure 64, Parse.Ses.exampleEnclosure 64] 0 7 ss := by
  intro ss
  have hok : ∀ s ∈ ss, s.Ok := by
    intro s hs
    rcases List.mem_append.1 hs with h | h
    · rw [List.eq_of_mem_replicate h]
      exact ⟨rfl, fun e he => by rw [List.eq_of_mem_replicate he]; rfl, List.length_replicate⟩
    · rw [List.mem_singleton.1 h]
      exact ⟨rfl, fun e he => by rw [List.eq_of_mem_replicate he]; rfl, List.length_replicate⟩
  have hp : ∀ n : UInt8, (Parse.Ses.statusPart (exampleType code n)).length = 4 + 4 * n.toNat ∧ (Parse.Ses.statusPart (exampleType 0x17 n)).length = 4 + 4 * n.toNat := by
    intro n
    constructor <;> simp [Parse.Ses.statusPart, exampleType, List.flatten_replicate_replicate] <;> omega
  have hm : ss.map (·.type) = List.replicate 127 ⟨0x17, 127, 0, []⟩ ++ [⟨code, 125, 0, []⟩] := by
    simp [ss, exampleType]
  refine ⟨rfl, ?_, fun _ => ?_, hok, by decide, ?_⟩
  · rw [hm]
    refine ⟨by decide, by decide, by decide, by decide, ?_, ?_, ?_⟩
    · rw [List.length_append, List.length_replicate]; rfl
    · intro x hx
      rcases List.mem_append.1 hx with h | h
      · rw [List.eq_of_mem_replicate h]; decide
      · rw [List.mem_singleton.1 h]; simp
    · rw [Parse.Ses.configuration_length, List.length_append, List.length_replicate, List.flatMap_append, List.length_append, List.flatMap_replicate]
      simp [Parse.Ses.exampleEnclosure]
  · rw [hm]
    refine ⟨by decide, by decide, ?_, ?_⟩ <;>
    · intro x hx
      rcases List.mem_append.1 hx with h | h
      · rw [List.eq_of_mem_replicate h]; decide
      · rw [List.mem_singleton.1 h]; simp
  · rw [(Parse.Ses.status_length 0 7 ss hok).1]
    simp only [ss, List.flatMap_append, List.length_append, List.length_flatMap, List.map_replicate, List.sum_replicate_nat, List.map_cons, List.map_nil,
      List.sum_cons, List.sum_nil, (hp _).1, (hp _).2]
    decide

/-- Of such an enclosure the caller learns the status if the last type is, say, 18h (SAS expander), and nothing if it is 17h. -/
example (B : Parse.BufLib) (t : Target) :
    (∃ t' conf P, Cuts B t' (.ses (getSesPage 2) (some conf)) (.learns P)) ∧ ∃ t' conf, Cuts B t' (.ses (getSesPage 2) (some conf)) .incomplete :=
  ⟨⟨_, _, _, .statusLast (example_long B 0x18 t) (List.dropLast_concat_getLast (List.cons_ne_nil _ _)).symm (by decide)⟩,
    ⟨_, _, .statusLastRefused (example_long B 0x17 t) (List.cons_ne_nil _ _) (by decide)⟩⟩

variable {K T : Type} [DecidableEq K] (L : Lib) (B : Parse.BufLib) (other : Bytes → Py (List (String × Int)))

/-- **C81 on Linux.** Any sequence of reporting commands executed through the sg executer in front of a target whose responses may be longer than the
allocation lengths: each caller sees what `TellsFilled` (C62) says if the response fits, and what `Cuts` says if it does not. -/
theorem C81_linux_partial (l : Bool) (t : Target) (alloc : Nat → Alloc) (tmo : Int) (ht : 0 ≤ tmo ∧ tmo < 2 ^ 32) (cmds : List Cmd) (ps : List Told)
    (hask : Each (fun c p => TellsFilled B t c p ∨ Cuts B t c p) cmds ps) (hok : Carried L (LinuxOk alloc) cmds)
    (w : W Handle K (Option Bytes) (DevErr Sense) (World (Target × Option Bytes))) (hw : LinuxIdle w.st w.os t) :
    ∃ w' as, RunAll (machine (T := T) (Linux.sgBlocking (lp64 l) getSense (Linux.sgDevice l target)).plat (Linux.prepare (lp64 l) alloc tmo))
        (cmds.map (·.command L B other)) w as w' ∧ Each Sees as ps ∧ LinuxIdle w'.st w'.os t := by
  obtain ⟨w', h1, h2⟩ := C51_linux (K := K) (T := T) l getSense target alloc tmo ht
    (fun m q h => target_parses m q (by intro h0; rw [h0] at h; simp at h)) (cmds.map (·.command L B other)) (carried_map B other hok) w t hw
  obtain ⟨e1, e2⟩ := askAll_target L B other (fun _ _ => cut_filled L B other outcome_passes) hask
  exact ⟨w', _, h1, e1, by rw [← e2]; exact h2⟩

/-- **C81 on Solaris.** -/
theorem C81_solaris_partial (l : Bool) (t : Target) (alloc : Nat → Alloc) (tmo : Int) (ht : 0 ≤ tmo ∧ tmo < 2 ^ 15) (cmds : List Cmd) (ps : List Told)
    (hask : Each (fun c p => TellsFilled B t c p ∨ Cuts B t c p) cmds ps) (hok : Carried L (SolarisOk alloc) cmds)
    (w : W Handle K (Option Bytes) (DevErr Sense) (Solaris.SolWorld Target)) (hw : SolarisIdle w.st w.os t) :
    ∃ w' as, RunAll (machine (T := T) (Solaris.solBlocking (lp64 l) getSense (Solaris.uscsiDevice l target)).plat (Solaris.prepare (lp64 l) alloc tmo))
        (cmds.map (·.command L B other)) w as w' ∧ Each Sees as ps ∧ SolarisIdle w'.st w'.os t := by
  obtain ⟨w', h1, h2⟩ := C51_solaris (K := K) (T := T) l getSense target alloc tmo ht
    (fun m q h => target_parses m q (by intro h0; rw [h0] at h; simp at h)) (cmds.map (·.command L B other)) (carried_map B other hok) w t hw
  obtain ⟨e1, e2⟩ := askAll_target L B other (fun _ _ => cut_filled L B other outcome_passes) hask
  exact ⟨w', _, h1, e1, by rw [← e2]; exact h2⟩

/-- **C81 on AIX**, with either ioctl binding. -/
theorem C81_aix_partial (b : Aix.Binding) (t : Target) (alloc : Nat → Alloc) (tmo : Int) (ht : 0 ≤ tmo ∧ tmo < 2 ^ 32) (cmds : List Cmd) (ps : List Told)
    (hask : Each (fun c p => TellsFilled B t c p ∨ Cuts B t c p) cmds ps) (hok : Carried L (AixOk b alloc) cmds)
    (w : W Handle K (Option Bytes) (DevErr Sense) (Aix.AixWorld Target)) (hw : AixIdle w.st w.os t) :
    ∃ w' as, RunAll (machine (T := T) (Aix.aixBlocking (lp64 false) getSense b (Aix.scDevice target)).plat (Aix.prepare (lp64 false) alloc tmo))
        (cmds.map (·.command L B other)) w as w' ∧ Each Sees as ps ∧ AixIdle w'.st w'.os t := by
  obtain ⟨w', h1, h2⟩ := C51_aix (K := K) (T := T) getSense b target alloc tmo ht
    (fun m q h => target_parses m q (by intro h0; rw [h0] at h; simp at h)) (cmds.map (·.command L B other)) (carried_map B other hok) w t hw
  obtain ⟨e1, e2⟩ := askAll_target L B other (fun _ _ => cut_filled L B other outcome_passes) hask
  exact ⟨w', _, h1, e1, by rw [← e2]; exact h2⟩

/-- **C81 on Windows**, 32 and 64 bit. -/
theorem C81_windows_partial (b : Bool) (t : Target) (alloc : Nat → Alloc) (cmds : List Cmd) (ps : List Told)
    (hask : Each (fun c p => TellsExactly B t c p ∨ Cuts B t c p) cmds ps) (hok : Carried L (WindowsOk b alloc) cmds)
    (w : W Win32.Spt K (Option Bytes) (DevErr Sense) (Win32.WinWorld Target)) (hw : WindowsIdle w.st w.os t) :
    ∃ w' as, RunAll (machine (T := T) (Win32.winPlat (Win32.W b) getSense (Win32.sptDevice b target)) (Win32.prepare (Win32.W b) alloc))
        (cmds.map (·.command L B other)) w as w' ∧ Each Sees as ps ∧ WindowsIdle w'.st w'.os t := by
  obtain ⟨w', h1, h2⟩ := C51_windows (K := K) (T := T) b getSense target alloc
    (fun m q h => target_parses m q (by rw [h]; decide)) (cmds.map (·.command L B other)) (carried_map B other hok) w t hw
  obtain ⟨e1, e2⟩ := askAll_target L B other (fun _ _ => cut_exactly L B other winOutcome_passes) hask
  exact ⟨w', _, h1, e1, by rw [← e2]; exact h2⟩

/-! ## Two targets that are taken for the same -/

/-- A serial number of 250 characters that ends with `c`. -/
def longSerial (c : UInt8) : Bytes := [0, 0x80, 0, 250] ++ List.replicate 249 0x41 ++ [c]

/-- A registrant whose iSCSI name ends with `c` (TransportID of format 00b). -/
def longStatus (c : UInt8) : Bytes := be 8 0x1234 ++ zeros 12 ++ be 4 24 ++ ([5, 0, 0, 20] ++ List.replicate 18 0x61 ++ [c, 0])

/-- A target with these. -/
def longNames (c : UInt8) : Target :=
  { standard := []
    vpd := fun p => if p = 0x80 then some (longSerial c) else none
    diagnostic := fun _ => none
    luns := fun _ => none
    groups := fun _ => none
    copy := none
    reservations := fun a => if a = 3 then some (readFullStatus 7 [longStatus c]) else none }

/-- What is told about the serial number and the registrant. -/
def serialTold (B : Parse.BufLib) (c : UInt8) : Result :=
  .serial (⟨peripheral (longSerial c), vpdHeaderShort (longSerial c)⟩, B.trim (((longSerial c).drop 4).take 248))

def statusTold (c : UInt8) : Result :=
  .reservations (.fullStatus
    { attrs := [("pr_generation", (7 : Nat)), ("additional_length", ([longStatus c].flatten.length : Int))]
      descriptors := some (([].map fun d => statusOf d d.length) ++ [statusOf (longStatus c) 32]) })

theorem names_told (B : Parse.BufLib) (c : UInt8) (hc : c = 0x42 ∨ c = 0x43) :
    Each (fun cmd p => TellsFilled B (longNames c) cmd p ∨ Cuts B (longNames c) cmd p) [.vpd (getVpdPage 0x80), .persistentReserveIn 3 (40 : Nat)]
      [.learns (· = serialTold B c), .learns (· = statusTold c)] := by
  refine .cons (.inr (.serial (b := longSerial c) rfl ?_ ?_ ?_))
      (.cons (.inr (.statusTransport (n := 40) (m := 32) (generation := 7) (ds := [longStatus c]) (before := []) (d := longStatus c)
        (by decide) (by decide) rfl (by decide) ⟨⟨[], rfl⟩, rfl, ?_⟩ (by decide) ?_ ?_)) .nil) <;>
    rcases hc with rfl | rfl <;> decide +kernel

theorem names_same (B : Parse.BufLib) : serialTold B 0x43 = serialTold B 0x42 ∧ statusTold 0x43 = statusTold 0x42 := by
  constructor
  · unfold serialTold
    rw [show ((longSerial 0x43).drop 4).take 248 = ((longSerial 0x42).drop 4).take 248 by decide +kernel,
      show peripheral (longSerial 0x43) = peripheral (longSerial 0x42) by decide +kernel,
      show vpdHeaderShort (longSerial 0x43) = vpdHeaderShort (longSerial 0x42) by decide +kernel]
  · unfold statusTold
    rw [show statusOf (longStatus 0x43) 32 = statusOf (longStatus 0x42) 32 by decide +kernel]
    rfl

/-- **C81 is false**: two targets with different serial numbers and different registrants are shown alike, by commands that return normally; a
READ FULL STATUS with room for 40 bytes. (Likewise on the other platforms: `C81_solaris_partial`, `C81_aix_partial`, `C81_windows_partial`.) -/
theorem C81_linux_false (l : Bool) (alloc : Nat → Alloc) (tmo : Int) (ht : 0 ≤ tmo ∧ tmo < 2 ^ 32)
    (hok : Carried L (LinuxOk alloc) [.vpd (getVpdPage 0x80), .persistentReserveIn 3 (40 : Nat)])
    (w w2 : W Handle K (Option Bytes) (DevErr Sense) (World (Target × Option Bytes)))
    (hw : LinuxIdle w.st w.os (longNames 0x42)) (hw2 : LinuxIdle w2.st w2.os (longNames 0x43)) :
    (longNames 0x42).vpd 0x80 ≠ (longNames 0x43).vpd 0x80 ∧ (longNames 0x42).reservations 3 ≠ (longNames 0x43).reservations 3 ∧
    ∃ w' w2' x y,
      RunAll (machine (T := T) (Linux.sgBlocking (lp64 l) getSense (Linux.sgDevice l target)).plat (Linux.prepare (lp64 l) alloc tmo))
        (([.vpd (getVpdPage 0x80), .persistentReserveIn 3 (40 : Nat)] : List Cmd).map (·.command L B other)) w
        [.ok (some (.obj x)), .ok (some (.obj y))] w' ∧
      RunAll (machine (T := T) (Linux.sgBlocking (lp64 l) getSense (Linux.sgDevice l target)).plat (Linux.prepare (lp64 l) alloc tmo))
        (([.vpd (getVpdPage 0x80), .persistentReserveIn 3 (40 : Nat)] : List Cmd).map (·.command L B other)) w2
        [.ok (some (.obj x)), .ok (some (.obj y))] w2' := by
  refine ⟨by decide +kernel, by decide +kernel, ?_⟩
  obtain ⟨w', as, h1, h2, -⟩ := C81_linux_partial (K := K) (T := T) L B other l _ alloc tmo ht _ _ (names_told B 0x42 (.inl rfl)) hok w hw
  obtain ⟨w2', as2, h3, h4, -⟩ := C81_linux_partial (K := K) (T := T) L B other l _ alloc tmo ht _ _ (names_told B 0x43 (.inr rfl)) hok w2 hw2
  cases h2 with
  | cons a1 h2 =>
  cases h2 with
  | cons a2 h2 =>
  cases h2
  cases h4 with
  | cons b1 h4 =>
  cases h4 with
  | cons b2 h4 =>
  cases h4
  obtain ⟨_, rfl, rfl⟩ := a1
  obtain ⟨_, rfl, rfl⟩ := a2
  obtain ⟨_, rfl, rfl⟩ := b1
  obtain ⟨_, rfl, rfl⟩ := b2
  rw [(names_same B).1, (names_same B).2] at h3
  exact ⟨w', w2', _, _, h1, h3⟩

/-- The hypotheses of `C81_linux_false` are met. -/
example (L : Lib) : Carried L (LinuxOk (fun _ => { block := 4096, sense := 8192, cmd := 12288, data := 16384 }))
      [.vpd (getVpdPage 0x80), .persistentReserveIn 3 (40 : Nat)] := by
  have fit : ∀ q : Req, q.cdb.length ≤ 16 → dataSize q ≤ 2048 →
      LinuxOk (fun _ => { block := 4096, sense := 8192, cmd := 12288, data := 16384 }) q := by
    intro q h1 h2
    refine ⟨by omega, by omega, fun _ => ⟨?_, ?_⟩⟩
    · simp; omega
    · simp
  intro c hc q hq
  simp only [List.mem_cons, List.not_mem_nil, or_false] at hc
  rcases hc with rfl | rfl
  · cases (Cdb.C36_inquiry L 1 0x80 252 (by simp [Fits]) (by simp [Fits]) (by simp [Fits])).symm.trans hq
    exact fit _ (by simp [Req.cdb, Spec.Cdb.inquiry]) (by simp [dataSize])
  · cases (Cdb.C36_persistent_reserve_in L 3 40 (by simp [Fits]) (by simp [Fits]) (by decide)).symm.trans hq
    exact fit _ (by simp [Req.cdb, Spec.Cdb.persistentReserveIn]) (by simp [dataSize])

/-- A device identification page of 31 relative target port designators and one for its name: 248 bytes end at a descriptor; and one with a NAA
designator first, where they end in a number. -/
example : CutAt (List.replicate 31 [1, 0x14, 0, 4, 0, 0, 0, 1] ++ [[2, 8, 0, 1, 0x41]]) 248 (List.replicate 31 [1, 0x14, 0, 4, 0, 0, 0, 1]) [2, 8, 0, 1, 0x41] 0 ∧
    CutAt ([1, 3, 0, 8, 0x50, 1, 2, 3, 4, 5, 6, 7] :: List.replicate 30 [1, 0x14, 0, 4, 0, 0, 0, 1]) 248
      ([1, 3, 0, 8, 0x50, 1, 2, 3, 4, 5, 6, 7] :: List.replicate 29 [1, 0x14, 0, 4, 0, 0, 0, 1]) [1, 0x14, 0, 4, 0, 0, 0, 1] 4 :=
  ⟨⟨⟨[], rfl⟩, by decide +kernel, by decide⟩, ⟨[], rfl⟩, by decide +kernel, by decide⟩

end Verif.Commands
