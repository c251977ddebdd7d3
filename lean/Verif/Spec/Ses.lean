import Verif.Spec.Inquiry
/-!
# SES-3: configuration, enclosure status and element descriptor pages

Encoders for the pages a conforming enclosure returns, and the meaning of the four bytes of a status element by element type.
Nothing here refers to the model.
-/

namespace Verif.Spec.Ses

/-! ## Configuration (SES-3 6.1.2) -/

/-- An enclosure descriptor: at least 40 bytes, ENCLOSURE DESCRIPTOR LENGTH in byte 3 is the number of bytes that follow it. -/
def IsEnclosure (e : Bytes) : Prop := 40 ≤ e.length ∧ e.length = 4 + byteAt e 3 ∧ Ascii ((e.drop 12).take 28)

instance (e : Bytes) : Decidable (IsEnclosure e) := inferInstanceAs (Decidable (_ ∧ _))

/-- Element type: ELEMENT TYPE, NUMBER OF POSSIBLE ELEMENTS, SUBENCLOSURE IDENTIFIER, and the text. -/
structure ElementType where
  code : UInt8
  possible : UInt8
  subenclosure : UInt8
  text : Bytes
  deriving DecidableEq, Repr

/-- The type descriptor header. -/
def ElementType.header (t : ElementType) : Bytes := [t.code, t.possible, t.subenclosure, UInt8.ofNat t.text.length]

/-- NUMBER OF TYPE DESCRIPTOR HEADERS of all enclosure descriptors together. -/
def headerCount : List Bytes → Nat
  | [] => 0
  | e :: es => byteAt e 2 + headerCount es

/-- The configuration page: first all enclosure descriptors, then all type descriptor headers, then all texts. -/
def configuration (generation : Nat) (es : List Bytes) (ts : List ElementType) : Bytes :=
  let body := be 4 generation ++ es.flatten ++ ts.flatMap ElementType.header ++ ts.flatMap ElementType.text
  [0x01, UInt8.ofNat (es.length - 1)] ++ be 2 body.length ++ body

/-- What the standard demands of a configuration: at least one enclosure descriptor and no more than a byte can count, as many type headers as
the enclosure descriptors announce, texts and page not longer than their length fields can say. -/
structure IsConfiguration (generation : Nat) (es : List Bytes) (ts : List ElementType) : Prop where
  generationFits : generation < 2 ^ 32
  nonempty : es ≠ []
  count : es.length ≤ 256
  each : ∀ e ∈ es, IsEnclosure e
  headers : headerCount es = ts.length
  texts : ∀ t ∈ ts, t.text.length < 256
  page : (configuration generation es ts).length < 4 + 2 ^ 16

/-- No count of the configuration needs the top bit of its byte. -/
structure Small (es : List Bytes) (ts : List ElementType) : Prop where
  count : es.length ≤ 128
  each : ∀ e ∈ es, byteAt e 2 < 128
  texts : ∀ t ∈ ts, t.text.length < 128
  possible : ∀ t ∈ ts, t.possible.toNat < 128

/-- The numbers of an enclosure descriptor. -/
def enclosureNumbers (signed : Bool) (e : Bytes) : List (String × Int) :=
  [("enclosure_services_processes_num", bitsAt e 0 2 0), ("relative_enclosure_services_process_identifier", bitsAt e 0 6 4),
   ("subenclosure_identifier", asInt signed 1 (byteAt e 1)), ("type_descriptor_headers_num", asInt signed 1 (byteAt e 2)),
   ("enclosure_descriptor_length", byteAt e 3)]

/-- The numbers of a type descriptor header. -/
def typeNumbers (signed : Bool) (t : ElementType) : List (String × Int) :=
  [("element_type", t.code.toNat), ("possible_elements_num", asInt signed 1 t.possible.toNat),
   ("subenclosure_identifier", asInt signed 1 t.subenclosure.toNat), ("type_descriptor_text_length", asInt signed 1 t.text.length)]

/-! ## Enclosure status (SES-3 6.1.4, 7.2, 7.3) -/

/-- One choice for each thing that implementations may do differently. -/
structure Reading where
  /-- numbers of one or two bytes are two's complement -/
  signed : Bool
  /-- the voltage and current are two's complement -/
  signedSensors : Bool
  /-- the three high bits of the fan speed are taken as its low bits -/
  fanSwapped : Bool
  /-- the byte of an enclosure element that holds the requests -/
  requests : Nat

/-- What SES-3 says. -/
def standard : Reading := ⟨false, true, false, 3⟩

/-- Byte 0 of every status element. -/
def common (e : Bytes) : List (String × Int) :=
  [("element_status_code", bitsAt e 0 3 0), ("swap", bitAt e 0 4), ("disabled", bitAt e 0 5), ("prdfail", bitAt e 0 6)]

/-- FAIL and IDENT in byte 1. -/
def failIdent (e : Bytes) : List (String × Int) := [("fail", bitAt e 1 6), ("ident", bitAt e 1 7)]

/-- Bytes 2 and 3 of device slot and array device slot elements. -/
def slotBits (e : Bytes) : List (String × Int) :=
  [("report", bitAt e 2 0), ("ident", bitAt e 2 1), ("rmv", bitAt e 2 2), ("ready_insert", bitAt e 2 3), ("encl_bypassed_b", bitAt e 2 4),
   ("encl_bypassed_a", bitAt e 2 5), ("do_not_remove", bitAt e 2 6), ("app_client_bypassed_a", bitAt e 2 7), ("device_bypassed_b", bitAt e 3 0),
   ("device_bypassed_a", bitAt e 3 1), ("bypassed_b", bitAt e 3 2), ("bypassed_a", bitAt e 3 3), ("device_off", bitAt e 3 4),
   ("fault_reqstd", bitAt e 3 5), ("fault_sensed", bitAt e 3 6), ("app_client_bypassed_b", bitAt e 3 7)]

/-- ACTUAL FAN SPEED: bits 2-0 of byte 1 are the high bits, byte 2 the low bits. -/
def fanSpeed (r : Reading) (e : Bytes) : Nat :=
  if r.fanSwapped then bitsAt e 1 2 0 + 8 * byteAt e 2 else 256 * bitsAt e 1 2 0 + byteAt e 2

/-- The fields of a status element by ELEMENT TYPE (SES-3 7.3.2 to 7.3.26). Other types are vendor specific: no fields. -/
def info (r : Reading) (code : Nat) (e : Bytes) : List (String × Int) :=
  match code with
  | 0x01 => ("slot_address", asInt r.signed 1 (byteAt e 1)) :: slotBits e
  | 0x02 =>
    [("ident", bitAt e 1 7), ("dc_over_current", bitAt e 2 1), ("dc_under_voltage", bitAt e 2 2), ("dc_over_voltage", bitAt e 2 3),
     ("dc_fail", bitAt e 3 0), ("ac_fail", bitAt e 3 1), ("temp_warn", bitAt e 3 2), ("overtmp_fail", bitAt e 3 3), ("off", bitAt e 3 4),
     ("reqstd_on", bitAt e 3 5), ("fail", bitAt e 3 6), ("hot_swap", bitAt e 3 7)]
  | 0x03 =>
    [("ident", bitAt e 1 7), ("speed_code", bitsAt e 3 2 0), ("off", bitAt e 3 4), ("reqstd_on", bitAt e 3 5), ("fail", bitAt e 3 6),
     ("hot_swap", bitAt e 3 7), ("fan_speed", fanSpeed r e)]
  | 0x04 =>
    (failIdent e).append [("temperature", asInt r.signed 1 (byteAt e 2)), ("ut_warn", bitAt e 3 0), ("ut_fail", bitAt e 3 1), ("ot_warn", bitAt e 3 2),
     ("ot_fail", bitAt e 3 3)]
  | 0x05 => (failIdent e).append [("unlocked", bitAt e 3 0), ("door_open", bitAt e 3 1)]
  | 0x06 =>
    (failIdent e).append [("tui_unrecov", bitAt e 3 0), ("tui_crit", bitAt e 3 1), ("tui_non_crit", bitAt e 3 2), ("tui_info", bitAt e 3 3),
     ("remind", bitAt e 3 4), ("muted", bitAt e 3 6), ("rqst_mute", bitAt e 3 7)]
  | 0x07 => (failIdent e).append [("report", bitAt e 2 0), ("hot_swap", bitAt e 3 7)]
  | 0x08 => (failIdent e).append [("report", bitAt e 2 0)]
  | 0x09 => ("size_mult", (bitsAt e 1 1 0 : Int)) :: (failIdent e).append [("cache_size", asInt r.signed 2 (num e 2 2))]
  | 0x0A => [("invop_type", bitsAt e 1 7 6), ("invop_bytes", asInt r.signed 2 (num e 2 2))]
  | 0x0B =>
    [("battery_status", asInt r.signed 1 (byteAt e 1)), ("intf_fail", bitAt e 2 0), ("warn", bitAt e 2 1), ("ups_fail", bitAt e 2 2),
     ("dc_fail", bitAt e 2 3), ("ac_fail", bitAt e 2 4), ("ac_qual", bitAt e 2 5), ("ac_hi", bitAt e 2 6), ("ac_low", bitAt e 2 7),
     ("bpf", bitAt e 3 0), ("batt_fail", bitAt e 3 1), ("fail", bitAt e 3 6), ("ident", bitAt e 3 7)]
  | 0x0C => ("display_mode_status", (bitsAt e 1 1 0 : Int)) :: (failIdent e).append [("display_char_status", asInt r.signed 2 (num e 2 2))]
  | 0x0D => failIdent e
  | 0x0E =>
    [("ident", bitAt e 1 7), ("warn_indication", bitAt e 2 0), ("failure_indication", bitAt e 2 1), ("time_until_power_cycle", bitsAt e 2 7 2),
     ("warn_requested", bitAt e r.requests 0), ("failure_requested", bitAt e r.requests 1),
     ("requested_power_off_duration", bitsAt e r.requests 7 2)]
  | 0x0F => (failIdent e).append [("report", bitAt e 2 0), ("xmit_fail", bitAt e 3 0), ("lol", bitAt e 3 1), ("disabled", bitAt e 3 4)]
  | 0x10 => [("ident", bitAt e 1 7), ("language_code", asInt r.signed 2 (num e 2 2))]
  | 0x11 => (failIdent e).append [("disabled", bitAt e 3 0)]
  | 0x12 =>
    List.append [("crit_under", bitAt e 1 0), ("crit_over", bitAt e 1 1), ("warn_under", bitAt e 1 2), ("warn_over", bitAt e 1 3)]
      ((failIdent e).append [("voltage", asInt r.signedSensors 2 (num e 2 2))])
  | 0x13 =>
    List.append [("crit_over", bitAt e 1 1), ("warn_over", bitAt e 1 3)] ((failIdent e).append [("current", asInt r.signedSensors 2 (num e 2 2))])
  | 0x14 => (failIdent e).append [("report", bitAt e 2 0), ("enabled", bitAt e 3 0)]
  | 0x15 => (failIdent e).append [("report", bitAt e 2 0), ("enabled", bitAt e 3 0)]
  | 0x16 => (failIdent e).append [("short_enclosure_status", asInt r.signed 1 (byteAt e 3))]
  | 0x17 =>
    List.append [("rr_abort", bitAt e 1 0), ("rebuild_remap", bitAt e 1 1), ("in_failed_array", bitAt e 1 2), ("in_crit_array", bitAt e 1 3),
     ("cons_chk", bitAt e 1 4), ("hot_spare", bitAt e 1 5), ("rsvd_device", bitAt e 1 6), ("ok", bitAt e 1 7)] (slotBits e)
  | 0x18 => failIdent e
  | 0x19 =>
    [("connector_type", bitsAt e 1 6 0), ("ident", bitAt e 1 7), ("connector_phys_link", asInt r.signed 1 (byteAt e 2)), ("fail", bitAt e 3 6)]
  | _ => []

/-- The class the library documents for an element type. -/
def className : Nat → String
  | 0x01 => "DeviceSlotStatusElement"
  | 0x02 => "PowerSupplyStatusElement"
  | 0x03 => "CoolingStatusElement"
  | 0x04 => "TempSensorStatusElement"
  | 0x05 => "DoorElementStatusElement"
  | 0x06 => "AudibleAlarmStatusElement"
  | 0x07 => "EnclosureServiceControllerStatusElement"
  | 0x08 => "SccControllerStatusElement"
  | 0x09 => "NonVolotileCacheStatusElement"
  | 0x0A => "InvalidOpReasonStatusElement"
  | 0x0B => "UninterruptiblePowerSupplyStatusElement"
  | 0x0C => "DisplayStatusElement"
  | 0x0D => "KeypadStatusElement"
  | 0x0E => "EnclosureStatusElement"
  | 0x0F => "ScsiPortTransceiverStatusElement"
  | 0x10 => "LanguageStatusElement"
  | 0x11 => "CommunicationPortStatusElement"
  | 0x12 => "VoltageSensorStatusElement"
  | 0x13 => "CurrentSensorStatusElement"
  | 0x14 => "ScsiTargetPortStatusElement"
  | 0x15 => "ScsiInitiatorPortStatusElement"
  | 0x16 => "SimpleSubenclosureStatusElement"
  | 0x17 => "ArrayDeviceSlotStatusElement"
  | 0x18 => "SasExpanderStatusElement"
  | 0x19 => "SasConnectorStatusElement"
  | _ => "GeneralStatusElement"

/-- The types whose elements have no fields of their own come back as their three bytes. -/
def general (r : Reading) (code : Nat) (e : Bytes) : List Int :=
  if 1 ≤ code ∧ code ≤ 0x19 then [] else [1, 2, 3].map fun i => asInt r.signed 1 (byteAt e i)

/-- The status of one element type: the overall element, then the individual elements. -/
structure TypeStatus where
  type : ElementType
  overall : Bytes
  elements : List Bytes

/-- Every element has four bytes, and there are as many as the configuration says are possible. -/
def TypeStatus.Ok (s : TypeStatus) : Prop :=
  s.overall.length = 4 ∧ (∀ e ∈ s.elements, e.length = 4) ∧ s.elements.length = s.type.possible.toNat

/-- The enclosure status page. `flags` is byte 1: INVOP, INFO, NON-CRIT, CRIT, UNRECOV. -/
def enclosureStatus (flags : UInt8) (generation : Nat) (ss : List TypeStatus) : Bytes :=
  let body := be 4 generation ++ ss.flatMap fun s => s.overall ++ s.elements.flatten
  [0x02, flags] ++ be 2 body.length ++ body

/-! ## Element descriptors (SES-3 6.1.10) -/

/-- The descriptors of one element type: overall, then individual. -/
structure TypeTexts where
  type : ElementType
  overall : Bytes
  elements : List Bytes

def TypeTexts.Ok (s : TypeTexts) : Prop := s.elements.length = s.type.possible.toNat

/-- One descriptor: two reserved bytes, the length, the text. -/
def descriptor (t : Bytes) : Bytes := [0, 0] ++ be 2 t.length ++ t

def elementDescriptors (generation : Nat) (ss : List TypeTexts) : Bytes :=
  let body := be 4 generation ++ ss.flatMap fun s => descriptor s.overall ++ s.elements.flatMap descriptor
  [0x07, 0x00] ++ be 2 body.length ++ body

end Verif.Spec.Ses
