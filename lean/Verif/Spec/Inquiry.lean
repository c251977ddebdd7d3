import Verif.Spec.Data
/-!
# INQUIRY data as the standards describe it (SPC-4, SBC-3, SAT-3)

By byte and bit position in the standard's tables; the names are the library's attribute names. Nothing here refers to the model.
-/

namespace Verif.Spec

/-- A text without the padding at its end. -/
def withoutTail (pad : UInt8) (b : Bytes) : Bytes := (b.reverse.dropWhile (· == pad)).reverse

/-- `b` is the field of a text `t` filled up with NULs or with spaces; `t` itself is empty or ends in a visible character. -/
def Padded (t b : Bytes) : Prop :=
  (∀ c, t.getLast? = some c → 0x20 < c.toNat ∧ c.toNat < 0x7F) ∧ ∃ n, b = t ++ List.replicate n 0 ∨ b = t ++ List.replicate n 0x20

def Ascii (b : Bytes) : Prop := ∀ c ∈ b, c.toNat < 128

instance (b : Bytes) : Decidable (Ascii b) := inferInstanceAs (Decidable (∀ c ∈ b, c.toNat < 128))

/-- Byte 0 of every INQUIRY page: PERIPHERAL DEVICE TYPE, PERIPHERAL QUALIFIER. -/
def peripheral (b : Bytes) : List (String × Int) := [("type", bitsAt b 0 4 0), ("qualifier", bitsAt b 0 7 5)]

/-! ## VPD pages -/

/-- PAGE CODE and a PAGE LENGTH of two bytes. -/
def vpdHeader (b : Bytes) : List (String × Int) := [("page_code", byteAt b 1), ("page_length", num b 2 2)]

/-- PAGE CODE and a PAGE LENGTH of one byte (serial number and supported pages, SPC-3). -/
def vpdHeaderShort (b : Bytes) : List (String × Int) := [("page_code", byteAt b 1), ("page_length", byteAt b 3)]

/-- SBC-3 table "Block Limits VPD page". -/
def blockLimits (b : Bytes) : List (String × Int) :=
  [("page_code", byteAt b 1), ("page_length", num b 2 2), ("wsnz", bitAt b 4 0), ("maximum_compare_and_write_length", byteAt b 5),
   ("optimal_transfer_length_granularity", num b 6 2), ("maximum_transfer_length", num b 8 4), ("optimal_transfer_length", num b 12 4),
   ("maximum_prefetch_xdread_xdwrite_transfer_length", num b 16 4), ("maximum_unmap_lba_count", num b 20 4),
   ("maximum_unmap_block_descriptor_count", num b 24 4), ("optimal_unmap_granularity", num b 28 4), ("ugavalid", bitAt b 32 7),
   ("maximum_write_same_length", num b 36 8)]

/-- UNMAP GRANULARITY ALIGNMENT: bits 30..0 of the four bytes 32 to 35. -/
def unmapGranularityAlignment (b : Bytes) : Nat := num b 32 4 % 2 ^ 31

/-- SBC-3 table "Logical Block Provisioning VPD page". -/
def provisioning (b : Bytes) : List (String × Int) :=
  [("page_code", byteAt b 1), ("page_length", num b 2 2), ("threshold_exponent", byteAt b 4), ("dp", bitAt b 5 0), ("anc_sup", bitAt b 5 1),
   ("lbprz", bitAt b 5 2), ("lbpws10", bitAt b 5 5), ("lbpws", bitAt b 5 6), ("lbpu", bitAt b 5 7), ("provisioning_type", bitsAt b 6 2 0)]

/-- The vendor page C0h as the library's users know it: flags in byte 4, RAID type in byte 5. -/
def veritas (b : Bytes) : List (String × Int) :=
  [("page_code", byteAt b 1), ("page_length", num b 2 2), ("is_thin_lun", bitAt b 4 0), ("is_snapshot_lun", bitAt b 4 1),
   ("is_space_optimized_src", bitAt b 4 2), ("is_fcdisk_lun", bitAt b 4 3), ("is_satadisk_lun", bitAt b 4 4), ("is_replication_src", bitAt b 4 5),
   ("is_replication_dst", bitAt b 4 6), ("raid_type", byteAt b 5)]

/-! ## Designation descriptors (SPC-4, 7.8.5) -/

def designatorType (d : Bytes) : Nat := bitsAt d 1 3 0

/-- Network address authority: the first four bits of an NAA designator. -/
def naa (d : Bytes) : Nat := bitsAt d 4 7 4

/-- The lengths the standard gives each designator type. -/
def DesignatorSize (d : Bytes) : Prop :=
  match designatorType d with
  | 1 => 8 ≤ byteAt d 3
  | 2 => byteAt d 3 = 8 ∨ byteAt d 3 = 12 ∨ byteAt d 3 = 16
  | 3 => ((naa d = 2 ∨ naa d = 3 ∨ naa d = 5) ∧ byteAt d 3 = 8) ∨ (naa d = 6 ∧ byteAt d 3 = 16)
  | 4 => byteAt d 3 = 4
  | 5 => byteAt d 3 = 4
  | 6 => byteAt d 3 = 4
  | 7 => byteAt d 3 = 16
  | _ => True

/-- A complete designation descriptor of one of the standard's formats (types 9 to 15 are open to any content). -/
def IsDesignator (d : Bytes) : Prop := 4 ≤ d.length ∧ d.length = 4 + byteAt d 3 ∧ DesignatorSize d

instance (d : Bytes) : Decidable (DesignatorSize d) := by unfold DesignatorSize; split <;> infer_instance

instance (d : Bytes) : Decidable (IsDesignator d) := inferInstanceAs (Decidable (_ ∧ _))

/-- Where the library's object holds a text (T10 vendor, reserved types), the bytes are ASCII. -/
def TextOk (d : Bytes) : Prop :=
  (designatorType d = 1 → Ascii ((d.drop 4).take 8)) ∧ (9 ≤ designatorType d → Ascii (d.drop 4))

instance (d : Bytes) : Decidable (TextOk d) := inferInstanceAs (Decidable (_ ∧ _))

/-- A descriptor of a sub-format that is not one of the formats above: an EUI-64 designator of another length, an NAA designator of another NAA. -/
def UnknownFormat (d : Bytes) : Prop :=
  (designatorType d = 2 ∧ 4 ≤ d.length ∧ byteAt d 3 ≠ 8 ∧ byteAt d 3 ≠ 12 ∧ byteAt d 3 ≠ 16) ∨
  (designatorType d = 3 ∧ 5 ≤ d.length ∧ naa d ≠ 2 ∧ naa d ≠ 3 ∧ naa d ≠ 5 ∧ naa d ≠ 6)

instance (d : Bytes) : Decidable (UnknownFormat d) := inferInstanceAs (Decidable (_ ∨ _))

/-- The kind of object the library returns. -/
def designatorClass (d : Bytes) : String :=
  match designatorType d with
  | 0 => "VendorSpecificDesignator"
  | 1 => "T10VendorIDDesignator"
  | 2 => if byteAt d 3 = 8 then "EUI64_Designator" else if byteAt d 3 = 12 then "EUI64_12Byte_Designator" else "EUI64_16Byte_Designator"
  | 3 =>
    if naa d = 2 then "NAA_IEEE_Extended_Designator"
    else if naa d = 3 then "NAA_Locally_Assigned_Designator"
    else if naa d = 5 then "NAA_IEEE_Registered_Designator"
    else "NAA_IEEE_Registered_Extended_Designator"
  | 4 => "RelativeTargetPortDesignator"
  | 5 => "TargetPortGroupDesignator"
  | 6 => "LogicalUnitGroupDesignator"
  | 7 => "MD5LogicalUnitDesignator"
  | 8 => "SCSINameDesignator"
  | _ => "Reserved_Designator"

/-- Table "Designation descriptor", bytes 0 to 3. -/
def designatorHeader (d : Bytes) : List (String × Int) :=
  [("code_set", bitsAt d 0 3 0), ("protocol_identifier", bitsAt d 0 7 4), ("designator_type", bitsAt d 1 3 0), ("association", bitsAt d 1 5 4),
   ("piv", bitAt d 1 7), ("reserved", byteAt d 2), ("designator_length", byteAt d 3)]

/-- The numbers in the designator (which starts at byte 4), by type. An NAA designator of eight bytes is a 64-bit number: four bits NAA,
then for NAA 2 a 12-bit vendor number, 24 bits company id, a 24-bit vendor number; for NAA 3 a 60-bit value; for NAA 5 and 6 a 24-bit
company id and a 36-bit vendor number, for NAA 6 followed by a 64-bit number. -/
def designatorNumbers (d : Bytes) : List (String × Int) :=
  match designatorType d with
  | 2 =>
    if byteAt d 3 = 8 then [("ieee_company", num d 4 3), ("vendor_specific_extension_identifer", num d 7 5)]
    else if byteAt d 3 = 12 then
      [("ieee_company", num d 4 3), ("vendor_specific_extension_identifer", num d 7 5), ("directory_id", num d 12 4)]
    else [("identifier_extension", num d 4 8), ("ieee_company", num d 12 3), ("vendor_specific_extension_identifer", num d 15 5)]
  | 3 =>
    if naa d = 2 then
      [("naa", naa d), ("ieee_company", num d 6 3), ("vendor_specific_identifier_b", num d 9 3),
       ("vendor_specific_identifier_a", ((num d 4 2 % 2 ^ 12 : Nat) : Int))]
    else if naa d = 3 then [("naa", naa d), ("locally_administered_value", ((num d 4 8 % 2 ^ 60 : Nat) : Int))]
    else if naa d = 5 then
      [("naa", naa d), ("ieee_company_id", ((num d 4 8 / 2 ^ 36 % 2 ^ 24 : Nat) : Int)),
       ("vendor_specific_identifier", ((num d 4 8 % 2 ^ 36 : Nat) : Int))]
    else
      [("naa", naa d), ("vendor_specific_identifier_extension", num d 12 8),
       ("ieee_company_id", ((num d 4 8 / 2 ^ 36 % 2 ^ 24 : Nat) : Int)), ("vendor_specific_identifier", ((num d 4 8 % 2 ^ 36 : Nat) : Int))]
  | 4 => [("relative_target_port_identifier", num d 6 2)]
  | 5 => [("target_port_group", num d 6 2)]
  | 6 => [("logical_unit_group", num d 6 2)]
  | _ => []

/-- The byte strings in the designator, by type; `text` takes a text out of its field. -/
def designatorData (text : Bytes → Bytes) (d : Bytes) : List (String × Bytes) :=
  match designatorType d with
  | 0 => [("vendor_specific_identifier", d.drop 4)]
  | 1 => [("t10_vendor_identification", text ((d.drop 4).take 8)), ("vendor_specific_identifier", d.drop 12)]
  | 2 => []
  | 3 => []
  | 4 => []
  | 5 => []
  | 6 => []
  | 7 => [("md5_logical_unit_identifier", d.drop 4)]
  | 8 => [("scsi_name_string", d.drop 4)]
  | _ => [("desginator", text (d.drop 4))]

/-- Table "Device Identification VPD page". -/
def deviceIdentification (first : UInt8) (ds : List Bytes) : Bytes := [first, 0x83] ++ be 2 ds.flatten.length ++ ds.flatten

/-! ## ATA information (SAT-3, ACS) -/

/-- The characters of words `first .. last` of the IDENTIFY DEVICE data: ATA strings have the two characters of each word swapped. -/
def wordText (b : Bytes) (first last : Nat) : Bytes :=
  (List.range (last + 1 - first)).flatMap (fun k => [b.getD (2 * (first + k) + 1) 0, b.getD (2 * (first + k)) 0])

/-- A number of `n` bytes, taken as two's complement or not. The library's fields of these pages do not say which; the standards' numbers
are not signed. -/
def asInt (signed : Bool) (n v : Nat) : Int := if signed then signedOf (8 * n) v else (v : Int)

/-- SAT-3 table "ATA Information VPD page". -/
def ataHeader (signed : Bool) (b : Bytes) : List (String × Int) :=
  [("page_code", asInt signed 1 (byteAt b 1)), ("page_length", asInt signed 2 (num b 2 2)), ("command_code", asInt signed 1 (byteAt b 56))]

/-- SAT-3 table "ATA Information VPD page": device signature, bytes 36 to 55. -/
def deviceSignature (signed : Bool) (s : Bytes) : List (String × Int) :=
  [("transport_id", asInt signed 1 (byteAt s 0)), ("pm_port", bitsAt s 1 3 0), ("interrupt", bitAt s 1 6), ("status", asInt signed 1 (byteAt s 2)),
   ("error", asInt signed 1 (byteAt s 3)), ("device", asInt signed 1 (byteAt s 7)), ("sector_count", asInt signed 2 (num s 12 2))]

/-! ## Standard INQUIRY data -/

/-- SPC-4 table "Standard INQUIRY data format". -/
def standardInquiry (b : Bytes) : List (String × Int) :=
  [("cong", bitAt b 1 6), ("rmb", bitAt b 1 7), ("version", byteAt b 2), ("response_data_format", bitsAt b 3 3 0), ("hisup", bitAt b 3 4),
   ("normaca", bitAt b 3 5), ("additional_length", byteAt b 4), ("protect", bitAt b 5 0), ("threepc", bitAt b 5 3), ("tpgs", bitsAt b 5 5 4),
   ("acc", bitAt b 5 6), ("sccs", bitAt b 5 7), ("addr16", bitAt b 6 0), ("multi_p", bitAt b 6 4), ("enc_serv", bitAt b 6 6),
   ("cmd_que", bitAt b 7 1), ("sync", bitAt b 7 4), ("wbus16", bitAt b 7 5)]

/-- The bytes from 36 on that belong to the data: ADDITIONAL LENGTH counts the bytes after byte 4. -/
def extendedPart (b : Bytes) : Bytes := (b.take (byteAt b 4 + 5)).drop 36

/-- VERSION DESCRIPTORs (two bytes each from byte 58, at most eight) that lie wholly in the data. `e` starts at byte 36. -/
def versionDescriptors (e : Bytes) : List Nat := (List.range (min ((e.length - 22) / 2) 8)).map fun j => num e (22 + 2 * j) 2

end Verif.Spec
