import Verif.Parse.Inquiry
/-!
# SES diagnostic pages

`cdb/diagnostic/ses_pages`. Besides what `Parse/Core.lean` and `Parse/Inquiry.lean` say about `infi.instruct.buffer`:

* `byte_size = n` of a class is the size its `unpack` reports.
* `list_field` with an `unpack_selector` gets the index of the element; with `n=` the number of elements. A number below zero stands for
  no elements (`range`).
* `int8` elements are read with the sign of the library's `be_int_field` (parameter `sg`).
-/

namespace Verif.Parse.Ses

/-- One element for each of `as`, one after the other. -/
def unpackEach {α β : Type} (elem : α → Bytes → Py (β × Nat)) : List α → Bytes → Py (List β × Nat)
  | [], _ => .ok ([], 0)
  | a :: as, buf => do
    let (x, k) ← elem a buf
    let (xs, ks) ← unpackEach elem as (buf.drop k)
    .ok (x :: xs, k + ks)

/-- `buffer[0:l]` with an `l` below zero is not modelled. -/
def negativeSlice : PyErr := .other 90

/-! ## Configuration page -/

/-- `EnclosureDescriptor`, the integer fields — `configuration.py:66-70`. -/
def enclosureFields : List UField :=
  [.i "enclosure_services_processes_num" (.bits 0 0 3), .i "relative_enclosure_services_process_identifier" (.bits 0 4 7),
   .i "subenclosure_identifier" (.bytes 1 2), .i "type_descriptor_headers_num" (.bytes 2 3), .u "enclosure_descriptor_length" (.bytes 3 4)]

structure Enclosure where
  attrs : List (String × Int)
  logicalId : Bytes
  vendor : Bytes
  product : Bytes
  revision : Bytes
  vendorSpecific : Bytes
  deriving DecidableEq, Repr

/-- `EnclosureDescriptor` — `configuration.py:65-76`; the size is the end of the last field. -/
def enclosureDescriptor (L : BufLib) (buf : Bytes) : Py (Enclosure × Nat) := do
  let a ← unpackFields L.sg enclosureFields buf
  let v ← textOf L none (slice buf 12 20)
  let p ← textOf L none (slice buf 20 36)
  let r ← textOf L none (slice buf 36 40)
  let stop := (get a "enclosure_descriptor_length" + 4).toNat
  .ok (⟨a, slice buf 4 12, v, p, r, slice buf 40 stop⟩, max 40 stop)

/-- `TypeDescriptorHeader` — `configuration.py:79-83`. -/
def typeHeaderFields : List UField :=
  [.u "element_type" (.bytes 0 1), .i "possible_elements_num" (.bytes 1 2), .i "subenclosure_identifier" (.bytes 2 3),
   .i "type_descriptor_text_length" (.bytes 3 4)]

def typeHeader (L : BufLib) (buf : Bytes) : Py (List (String × Int) × Nat) := do
  let a ← unpackFields L.sg typeHeaderFields buf
  .ok (a, 4)

/-- `_unpack_type_descriptor_text` — `configuration.py:90-92`. -/
def typeText (header : List (String × Int)) (buf : Bytes) : Py (Bytes × Nat) :=
  let l := get header "type_descriptor_text_length"
  if l < 0 then .error negativeSlice else .ok (slice buf 0 l.toNat, l.toNat)

structure Configuration where
  attrs : List (String × Int)
  enclosures : List Enclosure
  headers : List (List (String × Int))
  texts : List Bytes
  deriving DecidableEq, Repr

/-- Sum of an attribute over a list of objects. -/
def sumOf (name : String) : List Enclosure → Int
  | [] => 0
  | e :: es => get e.attrs name + sumOf name es

/-- `ConfigurationDiagnosticPagesData`, the integer fields — `configuration.py:94-97`. -/
def configurationFields : List UField :=
  [.i "page_code" (.bytes 0 1), .i "secondary_subenclosures_num" (.bytes 1 2), .i "page_length" (.bytes 2 4), .i "generation_code" (.bytes 4 8)]

/-- `ConfigurationDiagnosticPagesData` — `configuration.py:86-107`. The texts are as many as the headers. -/
def configuration (L : BufLib) (buf : Bytes) : Py Configuration := do
  let a ← unpackFields L.sg configurationFields buf
  let (es, n) ← unpackN (enclosureDescriptor L) (get a "secondary_subenclosures_num" + 1).toNat (buf.drop 8)
  let (hs, m) ← unpackN (typeHeader L) (sumOf "type_descriptor_headers_num" es).toNat (buf.drop (8 + n))
  let (ts, _) ← unpackEach typeText hs (buf.drop (8 + n + m))
  .ok { attrs := a, enclosures := es, headers := hs, texts := ts }

/-! ## Enclosure status page: what the bytes 1 to 3 of an element mean -/

structure InfoClass where
  fields : List UField
  cats : List (String × List Ref) := []

/-- A subclass of `BaseStatusElement` by its `status_info`; `none` is `GeneralElementInfo`. -/
structure StatusClass where
  name : String
  info : Option InfoClass

/-- `DeviceSlotElementInfo` — `enclosure_status.py:11-29`. -/
def deviceSlotElementInfo : InfoClass :=
  { fields := [.i "slot_address" (.bytes 0 1), .i "report" (.bits 1 0 1), .i "ident" (.bits 1 1 2), .i "rmv" (.bits 1 2 3),
     .i "ready_insert" (.bits 1 3 4), .i "encl_bypassed_b" (.bits 1 4 5), .i "encl_bypassed_a" (.bits 1 5 6), .i "do_not_remove" (.bits 1 6 7),
     .i "app_client_bypassed_a" (.bits 1 7 8), .i "device_bypassed_b" (.bits 2 0 1), .i "device_bypassed_a" (.bits 2 1 2), .i "bypassed_b" (.bits 2 2 3),
     .i "bypassed_a" (.bits 2 3 4), .i "device_off" (.bits 2 4 5), .i "fault_reqstd" (.bits 2 5 6), .i "fault_sensed" (.bits 2 6 7),
     .i "app_client_bypassed_b" (.bits 2 7 8)] }

/-- `ArrayDeviceSlotElementInfo` — `enclosure_status.py:33-58`. -/
def arrayDeviceSlotElementInfo : InfoClass :=
  { fields := [.i "rr_abort" (.bits 0 0 1), .i "rebuild_remap" (.bits 0 1 2), .i "in_failed_array" (.bits 0 2 3), .i "in_crit_array" (.bits 0 3 4),
     .i "cons_chk" (.bits 0 4 5), .i "hot_spare" (.bits 0 5 6), .i "rsvd_device" (.bits 0 6 7), .i "ok" (.bits 0 7 8),
     .i "report" (.bits 1 0 1), .i "ident" (.bits 1 1 2), .i "rmv" (.bits 1 2 3), .i "ready_insert" (.bits 1 3 4),
     .i "encl_bypassed_b" (.bits 1 4 5), .i "encl_bypassed_a" (.bits 1 5 6), .i "do_not_remove" (.bits 1 6 7), .i "app_client_bypassed_a" (.bits 1 7 8),
     .i "device_bypassed_b" (.bits 2 0 1), .i "device_bypassed_a" (.bits 2 1 2), .i "bypassed_b" (.bits 2 2 3), .i "bypassed_a" (.bits 2 3 4),
     .i "device_off" (.bits 2 4 5), .i "fault_reqstd" (.bits 2 5 6), .i "fault_sensed" (.bits 2 6 7), .i "app_client_bypassed_b" (.bits 2 7 8)] }

/-- `PowerSupplyElementInfo` — `enclosure_status.py:62-75`. -/
def powerSupplyElementInfo : InfoClass :=
  { fields := [.i "ident" (.bits 0 7 8), .i "dc_over_current" (.bits 1 1 2), .i "dc_under_voltage" (.bits 1 2 3), .i "dc_over_voltage" (.bits 1 3 4),
     .i "dc_fail" (.bits 2 0 1), .i "ac_fail" (.bits 2 1 2), .i "temp_warn" (.bits 2 2 3), .i "overtmp_fail" (.bits 2 3 4),
     .i "off" (.bits 2 4 5), .i "reqstd_on" (.bits 2 5 6), .i "fail" (.bits 2 6 7), .i "hot_swap" (.bits 2 7 8)] }

/-- `CoolingElementInfo` — `enclosure_status.py:89-98`. -/
def coolingElementInfo : InfoClass :=
  { fields := [.i "ident" (.bits 0 7 8), .i "speed_code" (.bits 2 0 3), .i "off" (.bits 2 4 5), .i "reqstd_on" (.bits 2 5 6),
     .i "fail" (.bits 2 6 7), .i "hot_swap" (.bits 2 7 8)],
    cats := [("fan_speed", [.bits 0 0 3, .bytes 1 2])] }

/-- `TempSensorElementInfo` — `enclosure_status.py:102-110`. -/
def tempSensorElementInfo : InfoClass :=
  { fields := [.i "fail" (.bits 0 6 7), .i "ident" (.bits 0 7 8), .i "temperature" (.bytes 1 2), .i "ut_warn" (.bits 2 0 1),
     .i "ut_fail" (.bits 2 1 2), .i "ot_warn" (.bits 2 2 3), .i "ot_fail" (.bits 2 3 4)] }

/-- `DoorElementInfo` — `enclosure_status.py:114-119`. -/
def doorElementInfo : InfoClass :=
  { fields := [.i "fail" (.bits 0 6 7), .i "ident" (.bits 0 7 8), .i "unlocked" (.bits 2 0 1), .i "door_open" (.bits 2 1 2)] }

/-- `AudibleAlarmElementInfo` — `enclosure_status.py:123-133`. -/
def audibleAlarmElementInfo : InfoClass :=
  { fields := [.i "fail" (.bits 0 6 7), .i "ident" (.bits 0 7 8), .i "tui_unrecov" (.bits 2 0 1), .i "tui_crit" (.bits 2 1 2),
     .i "tui_non_crit" (.bits 2 2 3), .i "tui_info" (.bits 2 3 4), .i "remind" (.bits 2 4 5), .i "muted" (.bits 2 6 7),
     .i "rqst_mute" (.bits 2 7 8)] }

/-- `EnclosureServiceControllerElementInfo` — `enclosure_status.py:137-142`. -/
def enclosureServiceControllerElementInfo : InfoClass :=
  { fields := [.i "fail" (.bits 0 6 7), .i "ident" (.bits 0 7 8), .i "report" (.bits 1 0 1), .i "hot_swap" (.bits 2 7 8)] }

/-- `SccControllerElementInfo` — `enclosure_status.py:146-150`. -/
def sccControllerElementInfo : InfoClass :=
  { fields := [.i "fail" (.bits 0 6 7), .i "ident" (.bits 0 7 8), .i "report" (.bits 1 0 1)] }

/-- `NonVolotileCacheElementInfo` — `enclosure_status.py:154-159`. -/
def nonVolotileCacheElementInfo : InfoClass :=
  { fields := [.i "size_mult" (.bits 0 0 2), .i "fail" (.bits 0 6 7), .i "ident" (.bits 0 7 8), .i "cache_size" (.bytes 1 3)] }

/-- `InvalidOpReasonElementInfo` — `enclosure_status.py:163-166`. -/
def invalidOpReasonElementInfo : InfoClass :=
  { fields := [.i "invop_type" (.bits 0 6 8), .i "invop_bytes" (.bytes 1 3)] }

/-- `UninterruptiblePowerSupplyElementInfo` — `enclosure_status.py:170-184`. -/
def uninterruptiblePowerSupplyElementInfo : InfoClass :=
  { fields := [.i "battery_status" (.bytes 0 1), .i "intf_fail" (.bits 1 0 1), .i "warn" (.bits 1 1 2), .i "ups_fail" (.bits 1 2 3),
     .i "dc_fail" (.bits 1 3 4), .i "ac_fail" (.bits 1 4 5), .i "ac_qual" (.bits 1 5 6), .i "ac_hi" (.bits 1 6 7),
     .i "ac_low" (.bits 1 7 8), .i "bpf" (.bits 2 0 1), .i "batt_fail" (.bits 2 1 2), .i "fail" (.bits 2 6 7),
     .i "ident" (.bits 2 7 8)] }

/-- `DisplayElementInfo` — `enclosure_status.py:188-193`. -/
def displayElementInfo : InfoClass :=
  { fields := [.i "display_mode_status" (.bits 0 0 2), .i "fail" (.bits 0 6 7), .i "ident" (.bits 0 7 8), .i "display_char_status" (.bytes 1 3)] }

/-- `KeypadElementInfo` — `enclosure_status.py:197-200`. -/
def keypadElementInfo : InfoClass :=
  { fields := [.i "fail" (.bits 0 6 7), .i "ident" (.bits 0 7 8)] }

/-- `EnclosureElementInfo` — `enclosure_status.py:204-212`. -/
def enclosureElementInfo : InfoClass :=
  { fields := [.i "ident" (.bits 0 7 8), .i "warn_indication" (.bits 1 0 1), .i "failure_indication" (.bits 1 1 2), .i "time_until_power_cycle" (.bits 1 2 8),
     .i "warn_requested" (.bits 1 0 1), .i "failure_requested" (.bits 1 1 2), .i "requested_power_off_duration" (.bits 1 2 8)] }

/-- `ScsiPortTransceiverElementInfo` — `enclosure_status.py:216-223`. -/
def scsiPortTransceiverElementInfo : InfoClass :=
  { fields := [.i "fail" (.bits 0 6 7), .i "ident" (.bits 0 7 8), .i "report" (.bits 1 0 1), .i "xmit_fail" (.bits 2 0 1),
     .i "lol" (.bits 2 1 2), .i "disabled" (.bits 2 4 5)] }

/-- `LanguageElementInfo` — `enclosure_status.py:227-230`. -/
def languageElementInfo : InfoClass :=
  { fields := [.i "ident" (.bits 0 7 8), .i "language_code" (.bytes 1 3)] }

/-- `CommunicationPortElementInfo` — `enclosure_status.py:234-238`. -/
def communicationPortElementInfo : InfoClass :=
  { fields := [.i "fail" (.bits 0 6 7), .i "ident" (.bits 0 7 8), .i "disabled" (.bits 2 0 1)] }

/-- `VoltageSensorElementInfo` — `enclosure_status.py:242-250`. -/
def voltageSensorElementInfo : InfoClass :=
  { fields := [.i "crit_under" (.bits 0 0 1), .i "crit_over" (.bits 0 1 2), .i "warn_under" (.bits 0 2 3), .i "warn_over" (.bits 0 3 4),
     .i "fail" (.bits 0 6 7), .i "ident" (.bits 0 7 8), .i "voltage" (.bytes 1 3)] }

/-- `CurrentSensorElementInfo` — `enclosure_status.py:254-260`. -/
def currentSensorElementInfo : InfoClass :=
  { fields := [.i "crit_over" (.bits 0 1 2), .i "warn_over" (.bits 0 3 4), .i "fail" (.bits 0 6 7), .i "ident" (.bits 0 7 8),
     .i "current" (.bytes 1 3)] }

/-- `ScsiTargetPortElementInfo` — `enclosure_status.py:264-269`. -/
def scsiTargetPortElementInfo : InfoClass :=
  { fields := [.i "fail" (.bits 0 6 7), .i "ident" (.bits 0 7 8), .i "report" (.bits 1 0 1), .i "enabled" (.bits 2 0 1)] }

/-- `ScsiInitiatorPortElementInfo` — `enclosure_status.py:273-278`. -/
def scsiInitiatorPortElementInfo : InfoClass :=
  { fields := [.i "fail" (.bits 0 6 7), .i "ident" (.bits 0 7 8), .i "report" (.bits 1 0 1), .i "enabled" (.bits 2 0 1)] }

/-- `SimpleSubenclosureElementInfo` — `enclosure_status.py:282-286`. -/
def simpleSubenclosureElementInfo : InfoClass :=
  { fields := [.i "fail" (.bits 0 6 7), .i "ident" (.bits 0 7 8), .i "short_enclosure_status" (.bytes 2 3)] }

/-- `SasExpanderElementInfo` — `enclosure_status.py:290-293`. -/
def sasExpanderElementInfo : InfoClass :=
  { fields := [.i "fail" (.bits 0 6 7), .i "ident" (.bits 0 7 8)] }

/-- `SasConnectorElementInfo` — `enclosure_status.py:297-302`. -/
def sasConnectorElementInfo : InfoClass :=
  { fields := [.i "connector_type" (.bits 0 0 7), .i "ident" (.bits 0 7 8), .i "connector_phys_link" (.bytes 1 2), .i "fail" (.bits 2 6 7)] }

/-- `ELEMENT_TYPE_TO_ELEMENT_INFO` — `enclosure_status.py:431-457`, with the `status_info` of each class (lines 325-428). -/
def elementTypes : List (Int × StatusClass) :=
  [(0x00, ⟨"GeneralStatusElement", none⟩),
   (0x01, ⟨"DeviceSlotStatusElement", some deviceSlotElementInfo⟩),
   (0x02, ⟨"PowerSupplyStatusElement", some powerSupplyElementInfo⟩),
   (0x03, ⟨"CoolingStatusElement", some coolingElementInfo⟩),
   (0x04, ⟨"TempSensorStatusElement", some tempSensorElementInfo⟩),
   (0x05, ⟨"DoorElementStatusElement", some doorElementInfo⟩),
   (0x06, ⟨"AudibleAlarmStatusElement", some audibleAlarmElementInfo⟩),
   (0x07, ⟨"EnclosureServiceControllerStatusElement", some enclosureServiceControllerElementInfo⟩),
   (0x08, ⟨"SccControllerStatusElement", some sccControllerElementInfo⟩),
   (0x09, ⟨"NonVolotileCacheStatusElement", some nonVolotileCacheElementInfo⟩),
   (0x0A, ⟨"InvalidOpReasonStatusElement", some invalidOpReasonElementInfo⟩),
   (0x0B, ⟨"UninterruptiblePowerSupplyStatusElement", some uninterruptiblePowerSupplyElementInfo⟩),
   (0x0C, ⟨"DisplayStatusElement", some displayElementInfo⟩),
   (0x0D, ⟨"KeypadStatusElement", some keypadElementInfo⟩),
   (0x0E, ⟨"EnclosureStatusElement", some enclosureElementInfo⟩),
   (0x0F, ⟨"ScsiPortTransceiverStatusElement", some scsiPortTransceiverElementInfo⟩),
   (0x10, ⟨"LanguageStatusElement", some languageElementInfo⟩),
   (0x11, ⟨"CommunicationPortStatusElement", some communicationPortElementInfo⟩),
   (0x12, ⟨"VoltageSensorStatusElement", some voltageSensorElementInfo⟩),
   (0x13, ⟨"CurrentSensorStatusElement", some currentSensorElementInfo⟩),
   (0x14, ⟨"ScsiTargetPortStatusElement", some scsiTargetPortElementInfo⟩),
   (0x15, ⟨"ScsiInitiatorPortStatusElement", some scsiInitiatorPortElementInfo⟩),
   (0x16, ⟨"SimpleSubenclosureStatusElement", some simpleSubenclosureElementInfo⟩),
   (0x17, ⟨"ArrayDeviceSlotStatusElement", some arrayDeviceSlotElementInfo⟩),
   (0x18, ⟨"SasExpanderStatusElement", some sasExpanderElementInfo⟩),
   (0x19, ⟨"SasConnectorStatusElement", some sasConnectorElementInfo⟩),
   (0x9e, ⟨"GeneralStatusElement", none⟩)]

/-- `GeneralStatusElement` — `enclosure_status.py:325-326`. -/
def generalStatus : StatusClass := ⟨"GeneralStatusElement", none⟩

/-- `StatusDescriptor._unpack_status_element` — `enclosure_status.py:461-466`. -/
def statusClass (elementType : Int) : StatusClass := (elementTypes.lookup elementType).getD generalStatus

/-- `BaseStatusElement` — `enclosure_status.py:317-322`. -/
def baseFields : List UField :=
  [.i "element_status_code" (.bits 0 0 4), .i "swap" (.bits 0 4 5), .i "disabled" (.bits 0 5 6), .i "prdfail" (.bits 0 6 7)]

structure StatusElement where
  cls : String
  attrs : List (String × Int)
  info : List (String × Int)
  /-- `general`, the bytes of a `GeneralElementInfo` -/
  general : List Int
  deriving DecidableEq, Repr

/-- `status_info`, unpacked from bytes 1 to 3: the attributes, or the list of a `GeneralElementInfo` (`enclosure_status.py:5-7`). -/
def statusInfo (L : BufLib) (info : Option InfoClass) (b : Bytes) : Py (List (String × Int) × List Int) :=
  match info with
  | none => .ok ([], b.map fun c => if L.sg then toSigned 1 c.toNat else (c.toNat : Int))
  | some i => do
    let a ← unpackFields L.sg i.fields b
    let c ← readCats L i.cats b
    .ok (a ++ c, [])

/-- One status element of four bytes. -/
def statusElement (L : BufLib) (c : StatusClass) (buf : Bytes) : Py (StatusElement × Nat) := do
  let a ← unpackFields L.sg baseFields buf
  let i ← statusInfo L c.info (slice buf 1 4)
  .ok (⟨c.name, a, i.1, i.2⟩, 4)

structure StatusDescriptor where
  overall : StatusElement
  individual : List StatusElement
  deriving DecidableEq, Repr

/-- `StatusDescriptor.unpack` — `enclosure_status.py:460-478`. The size is the end of the last element. -/
def statusDescriptor (L : BufLib) (header : List (String × Int)) (buf : Bytes) : Py (StatusDescriptor × Nat) := do
  let (o, _) ← statusElement L generalStatus (slice buf 0 4)
  let (l, n) ← unpackN (statusElement L (statusClass (get header "element_type"))) (get header "possible_elements_num").toNat (buf.drop 4)
  .ok (⟨o, l⟩, 4 + n)

structure EnclosureStatus where
  attrs : List (String × Int)
  descriptors : List StatusDescriptor
  deriving DecidableEq, Repr

/-- `EnclosureStatusDiagnosticPagesData`, the integer fields — `enclosure_status.py:491-498`. -/
def statusFields : List UField :=
  [.i "page_code" (.bytes 0 1), .i "unrecov" (.bits 1 0 1), .i "crit" (.bits 1 1 2), .i "non_crit" (.bits 1 2 3), .i "info" (.bits 1 3 4),
   .i "invop" (.bits 1 4 5), .i "page_length" (.bytes 2 4), .i "generation_code" (.bytes 4 8)]

/-- `EnclosureStatusDiagnosticPagesData` — `enclosure_status.py:482-501`; `conf` is the `conf_page`. -/
def enclosureStatus (L : BufLib) (conf : Configuration) (buf : Bytes) : Py EnclosureStatus := do
  let a ← unpackFields L.sg statusFields buf
  let (l, _) ← unpackEach (statusDescriptor L) conf.headers (buf.drop 8)
  .ok ⟨a, l⟩

/-! ## Element descriptor page -/

/-- `Descriptor` — `element_descriptor.py:5-7`. -/
structure Descriptor where
  length : Int
  descriptor : Bytes
  deriving DecidableEq, Repr

def descriptor (L : BufLib) (buf : Bytes) : Py (Descriptor × Nat) := do
  let a ← unpackFields L.sg [.i "descriptor_length" (.bytes 2 4)] buf
  let stop := (get a "descriptor_length" + 4).toNat
  .ok (⟨get a "descriptor_length", slice buf 4 stop⟩, max 4 stop)

structure ElementDescriptor where
  overall : Descriptor
  individual : List Descriptor
  deriving DecidableEq, Repr

/-- `ElementDescriptor.unpack` — `element_descriptor.py:10-20`. -/
def elementDescriptor (L : BufLib) (header : List (String × Int)) (buf : Bytes) : Py (ElementDescriptor × Nat) := do
  let (o, k) ← descriptor L buf
  let (l, n) ← unpackN (descriptor L) (get header "possible_elements_num").toNat (buf.drop k)
  .ok (⟨o, l⟩, k + n)

structure ElementDescriptors where
  attrs : List (String × Int)
  descriptors : List ElementDescriptor
  deriving DecidableEq, Repr

/-- `ElementDescriptorDiagnosticPagesData` — `element_descriptor.py:24-38`. -/
def elementDescriptors (L : BufLib) (conf : Configuration) (buf : Bytes) : Py ElementDescriptors := do
  let a ← unpackFields L.sg [.i "page_code" (.bytes 0 1), .i "page_length" (.bytes 2 4), .i "generation_code" (.bytes 4 8)] buf
  let (l, _) ← unpackEach (elementDescriptor L) conf.headers (buf.drop 8)
  .ok ⟨a, l⟩

/-! ## Supported pages, vendor page 80h -/

/-- `SupportedDiagnosticPagesData` — `supported_pages.py:6-9` — and `Vendor0x80DiagnosticPagesData` — `vendor_0x80.py:5-8`:
a header and the bytes from byte 4 to the end of the response, whatever `page_length` says. -/
def bytesPage (L : BufLib) (buf : Bytes) : Py (List (String × Int) × List Nat) := do
  let a ← unpackFields L.sg [.i "page_code" (.bytes 0 1), .i "page_length" (.bytes 2 4)] buf
  let l ← unpackAll elemU8 (buf.drop 4)
  .ok (a, l)

end Verif.Parse.Ses
