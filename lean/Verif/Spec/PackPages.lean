import Verif.Spec.Inquiry
/-!
# Specification: designators as objects

Which values of `DESIGNATOR TYPE`, `DESIGNATOR LENGTH` and the first four bits of the designator (`NAA`) SPC-4 gives each kind of designator whose
length is fixed or that of its only byte string.
-/

namespace Verif.Spec

/-- `length` is DESIGNATOR LENGTH, `bytes` the length of the byte string. -/
def describes (cls : String) (type length naa : Int) (bytes : Nat) : Prop :=
  match cls with
  | "VendorSpecificDesignator" => type = 0 ∧ length = bytes
  | "EUI64_Designator" => type = 2 ∧ length = 8
  | "EUI64_12Byte_Designator" => type = 2 ∧ length = 12
  | "EUI64_16Byte_Designator" => type = 2 ∧ length = 16
  | "NAA_IEEE_Extended_Designator" => type = 3 ∧ length = 8 ∧ naa = 2
  | "NAA_Locally_Assigned_Designator" => type = 3 ∧ length = 8 ∧ naa = 3
  | "NAA_IEEE_Registered_Designator" => type = 3 ∧ length = 8 ∧ naa = 5
  | "NAA_IEEE_Registered_Extended_Designator" => type = 3 ∧ length = 16 ∧ naa = 6
  | "RelativeTargetPortDesignator" => type = 4 ∧ length = 4
  | "TargetPortGroupDesignator" => type = 5 ∧ length = 4
  | "LogicalUnitGroupDesignator" => type = 6 ∧ length = 4
  | "MD5LogicalUnitDesignator" => type = 7 ∧ length = 16 ∧ bytes = 16
  | "SCSINameDesignator" => type = 8 ∧ length = bytes
  | _ => False

end Verif.Spec
