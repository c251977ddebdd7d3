import Verif.Spec.Data
/-!
# Response data as the standards describe it (SBC-3, SPC-4)

For each response: what each attribute of the library's object stands for, by byte and bit position in the standard's tables. The names
are the library's attribute names. Nothing here refers to the model.
-/

namespace Verif.Spec

/-- SBC-3 table "READ CAPACITY (10) parameter data". -/
def readCapacity10 (b : Bytes) : List (String × Nat) := [("last_logical_block_address", num b 0 4), ("block_length_in_bytes", num b 4 4)]

/-- SBC-3 table "READ CAPACITY (16) parameter data". -/
def readCapacity16 (b : Bytes) : List (String × Nat) :=
  [("last_logical_block_address", num b 0 8), ("block_length_in_bytes", num b 8 4), ("prot_en", bitAt b 12 0), ("p_type", bitsAt b 12 3 1),
   ("logical_blocks_per_physical_block", bitsAt b 13 3 0), ("p_i_exponent", bitsAt b 13 7 4), ("lowest_aligned_lba_msb", bitsAt b 14 5 0),
   ("troz", bitAt b 14 6), ("tpe", bitAt b 14 7), ("lowest_aligned_lba_lsb", byteAt b 15)]

/-- LOWEST ALIGNED LOGICAL BLOCK ADDRESS: bits 5..0 of byte 14 and byte 15. -/
def lowestAligned (b : Bytes) : Nat := num b 14 2 % 2 ^ 14

/-- SPC-4 table "REPORT LUNS parameter data": LUN LIST LENGTH in bytes, four reserved bytes, the entries. -/
def reportLuns (reserved : Bytes) (entries : List Bytes) : Bytes := be 4 (8 * entries.length) ++ reserved ++ entries.flatten

/-- SAM-5: an entry of the single level structure whose address method is 00b has a 14-bit number in the first two bytes (the bus
identifier zero bits included) and six zero bytes. -/
def simpleLun (n : Nat) : Bytes := be 2 n ++ zeros 6

/-- SPC-4 table "Target port group descriptor": attributes. -/
def targetPortGroup (d : Bytes) : List (String × Int) :=
  [("asymetric_access_state", bitsAt d 0 3 0), ("pref", bitAt d 0 7), ("ao_sup", bitAt d 1 0), ("an_sup", bitAt d 1 1), ("s_sup", bitAt d 1 2),
   ("u_sup", bitAt d 1 3), ("lbd_sup", bitAt d 1 4), ("o_sup", bitAt d 1 6), ("t_sup", bitAt d 1 7), ("target_port_group", num d 2 2),
   ("status_code", byteAt d 5), ("target_port_count", byteAt d 7)]

/-- Relative target port identifiers of a group: bytes 2, 3 of each four-byte target port descriptor after byte 7. -/
def targetPorts (d : Bytes) : List Nat := (List.range (byteAt d 7)).map (fun j => num d (8 + 4 * j + 2) 2)

/-- A complete descriptor: as long as its TARGET PORT COUNT says. -/
def IsTargetPortGroup (d : Bytes) : Prop := d.length = 8 + 4 * byteAt d 7 ∧ 8 ≤ d.length

instance (d : Bytes) : Decidable (IsTargetPortGroup d) := inferInstanceAs (Decidable (_ ∧ _))

/-- SPC-4 table "Length only header parameter data". -/
def rtpgLengthOnly (groups : List Bytes) : Bytes := be 4 groups.flatten.length ++ groups.flatten

/-- SPC-4 table "Extended header parameter data": format type 001b in bits 6..4 of byte 4, implicit transition time in byte 5, two
reserved bytes; the length does not count itself. -/
def rtpgExtended (time : UInt8) (groups : List Bytes) : Bytes := be 4 (4 + groups.flatten.length) ++ [0x10, time, 0, 0] ++ groups.flatten

/-- SPC-4 table "RECEIVE COPY OPERATING PARAMETERS parameter data". -/
def receiveCopy (b : Bytes) : List (String × Int) :=
  [("available_data", num b 0 4), ("snlid", bitAt b 4 0), ("max_cscd_descriptor_count", num b 8 2), ("max_segment_descriptor_count", num b 10 2),
   ("max_descriptor_list_length", num b 12 4), ("max_segment_length", num b 16 4), ("max_inline_data_length", num b 20 4),
   ("held_data_limit", num b 24 4), ("max_stream_device_transfer_size", num b 28 4), ("total_concurrent_copies", num b 34 2),
   ("max_concurrent_copies", byteAt b 36), ("data_segment_granularity", byteAt b 37), ("inline_data_granularity", byteAt b 38),
   ("held_data_granularity", byteAt b 39), ("implemented_descriptor_list_length", byteAt b 43)]

/-- SPC-4 table "PERSISTENT RESERVE IN parameter data": PRGENERATION, ADDITIONAL LENGTH. -/
def prHeader (b : Bytes) : List (String × Int) := [("pr_generation", num b 0 4), ("additional_length", num b 4 4)]

/-- SPC-4 READ KEYS: PRGENERATION, ADDITIONAL LENGTH, the keys. -/
def readKeys (generation : Nat) (keys : List Nat) : Bytes := be 4 generation ++ be 4 (8 * keys.length) ++ keys.flatMap (be 8)

/-- SPC-4 table "READ RESERVATION service action, reservation held". -/
def readReservation (b : Bytes) : List (String × Int) :=
  [("pr_generation", num b 0 4), ("additional_length", num b 4 4), ("reservation_key", num b 8 8), ("obsolete_1", num b 16 4), ("reserved_1", byteAt b 20), ("pr_type", bitsAt b 21 3 0),
   ("scope", bitsAt b 21 7 4), ("obsolete_2", num b 22 2)]

/-- SPC-4 table "REPORT CAPABILITIES parameter data" and "Persistent reservation type mask". -/
def reportCapabilities (b : Bytes) : List (String × Int) :=
  [("length", num b 0 2), ("persist_through_power_lost_capable", bitAt b 2 0), ("reserved_1", bitAt b 2 1), ("all_target_ports_capable", bitAt b 2 2),
   ("specify_initiator_ports_capable", bitAt b 2 3), ("compatible_reservation_handling", bitAt b 2 4), ("reserved_2", bitsAt b 2 6 5),
   ("replace_lost_reservation_capable", bitAt b 2 7), ("persist_through_power_lost_activates", bitAt b 3 0), ("reserved_3", bitsAt b 3 3 1),
   ("allow_commands", bitsAt b 3 6 4), ("type_mask_valid", bitAt b 3 7), ("write_exclusive", bitAt b 4 1), ("exclusive_access", bitAt b 4 3),
   ("write_exclusive_registrants_only", bitAt b 4 5), ("exclusive_access_registrants_only", bitAt b 4 6),
   ("write_exclusive_all_registrants", bitAt b 4 7), ("exclusive_access_all_registrants", bitAt b 5 0), ("reserved_4", num b 6 2)]

/-- SPC-4 table "Full status descriptor". -/
def fullStatus (d : Bytes) : List (String × Int) :=
  [("reservation_key", num d 0 8), ("reservation_holder", bitAt d 12 0), ("all_target_ports", bitAt d 12 1), ("pr_type", bitsAt d 13 3 0),
   ("scope", bitsAt d 13 7 4), ("relative_target_port_identifier", num d 18 2), ("additional_length", num d 20 4)]

/-- SPC-4 table "TransportID": protocol identifier and format code; the rest depends on the protocol. `t` is the TransportID. -/
def transportId (t : Bytes) : List (String × Int) :=
  [("protocol_identifier", bitsAt t 0 3 0), ("reserved_1", bitsAt t 0 5 4), ("format_code", bitsAt t 0 7 6)]

/-- A complete full status descriptor: as long as its ADDITIONAL DESCRIPTOR LENGTH says, with a TransportID. -/
def IsFullStatus (d : Bytes) : Prop := d.length = 24 + num d 20 4 ∧ 25 ≤ d.length

instance (d : Bytes) : Decidable (IsFullStatus d) := inferInstanceAs (Decidable (_ ∧ _))

/-- SPC-4 READ FULL STATUS: PRGENERATION, ADDITIONAL LENGTH, the descriptors. -/
def readFullStatus (generation : Nat) (ds : List Bytes) : Bytes := be 4 generation ++ be 4 ds.flatten.length ++ ds.flatten

end Verif.Spec
