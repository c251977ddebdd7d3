import Verif.Base
/-!
# C structures under natural alignment

Independent of the ctypes model: what a C compiler of the given data model does with a `struct` declaration, as a predicate on the
offsets, and the declarations quoted in the sources.
-/

namespace Verif.Spec

/-- Sizes of `long` and of pointers (`size_t` has the size of a pointer). -/
structure DataModel where
  long : Nat
  pointer : Nat

def LP64 : DataModel := { long := 8, pointer := 8 }
def LLP64 : DataModel := { long := 4, pointer := 8 }
def ILP32 : DataModel := { long := 4, pointer := 4 }

inductive C where
  | char | short | int | long | longlong | size_t | pointer
  | chars (n : Nat)

/-- `sizeof` -/
def C.bytes (d : DataModel) : C → Nat
  | char => 1
  | short => 2
  | int => 4
  | long => d.long
  | longlong => 8
  | size_t => d.pointer
  | pointer => d.pointer
  | chars n => n

/-- Natural alignment: a scalar at a multiple of its size, a character array anywhere. -/
def C.alignment (d : DataModel) : C → Nat
  | chars _ => 1
  | t => t.bytes d

/-- A `struct` declaration (signedness is irrelevant for the layout). -/
abbrev CDecl := List (String × C)

/-- `o` is the least multiple of `al` that is at least `n`. -/
def LeastMultiple (al n o : Nat) : Prop := al ∣ o ∧ n ≤ o ∧ ∀ o', al ∣ o' → n ≤ o' → o ≤ o'

/-- The fields (name, offset, size) are laid out as C prescribes, starting at `start`: in order, each at the least suitably aligned
offset after the previous one. -/
def Natural (d : DataModel) : Nat → CDecl → List (String × Nat × Nat) → Prop
  | _, [], l => l = []
  | start, (nm, t) :: r, l =>
    ∃ off rest, l = (nm, off, t.bytes d) :: rest ∧ LeastMultiple (t.alignment d) start off ∧ Natural d (off + t.bytes d) r rest

/-- The strictest alignment of the fields. -/
def strictest (d : DataModel) : CDecl → Nat
  | [] => 1
  | (_, t) :: r => max (t.alignment d) (strictest d r)

/-- End of the last field. -/
def endOf : List (String × Nat × Nat) → Nat
  | [] => 0
  | [(_, o, z)] => o + z
  | _ :: r => endOf r

/-- `n` is the `sizeof` of a structure laid out as `fields`: the end of the last field, rounded up to the strictest alignment. -/
def IsSizeof (d : DataModel) (decl : CDecl) (fields : List (String × Nat × Nat)) (n : Nat) : Prop :=
  LeastMultiple (strictest d decl) (endOf fields) n

/-- `struct sg_io_hdr` (linux.py:14-40) -/
def sgIoHdr : CDecl :=
  [("interface_id", .int), ("dxfer_direction", .int), ("cmd_len", .char), ("mx_sb_len", .char), ("iovec_count", .short),
   ("dxfer_len", .int), ("dxferp", .pointer), ("cmdp", .pointer), ("sbp", .pointer), ("timeout", .int), ("flags", .int),
   ("pack_id", .int), ("usr_ptr", .pointer), ("status", .char), ("masked_status", .char), ("msg_status", .char),
   ("sb_len_wr", .char), ("host_status", .short), ("driver_status", .short), ("resid", .int), ("duration", .int), ("info", .int)]

/-- `SCSI_PASS_THROUGH_DIRECT` (win32.py:230-245); `ULONG` is `long`. -/
def scsiPassThroughDirect : CDecl :=
  [("Length", .short), ("ScsiStatus", .char), ("PathId", .char), ("TargetId", .char), ("Lun", .char), ("CdbLength", .char),
   ("SenseInfoLength", .char), ("DataIn", .char), ("DataTransferLength", .long), ("TimeOutValue", .long), ("DataBuffer", .pointer),
   ("SenseInfoOffset", .long), ("Cdb", .chars 16)]

/-- `struct uscsi_cmd` (solaris.py:12-36), for the two byte orders. -/
def uscsiCmd (little : Bool) : CDecl :=
  [("uscsi_flags", .int)] ++
  (if little then [("uscsi_status", .char), ("uscsi_reason", .char)] else [("uscsi_reason", .char), ("uscsi_status", .char)]) ++
  [("uscsi_timeout", .short), ("uscsi_cdb", .pointer), ("uscsi_bufaddr", .pointer), ("uscsi_buflen", .size_t),
   ("uscsi_resid", .size_t), ("uscsi_cdblen", .char), ("uscsi_rqlen", .char), ("uscsi_rqstatus", .char), ("uscsi_rqresid", .char),
   ("uscsi_rqbuf", .pointer), ("uscsi_path_instance", .long)]

/-- `struct sc_passthru` (aix.py:18-173) -/
def scPassthru : CDecl :=
  [("version", .short), ("status_validity", .char), ("scsi_bus_status", .char), ("adap_status_type", .char), ("adapter_status", .char),
   ("adap_set_flags", .char), ("add_device_status", .char), ("adap_q_status", .char), ("q_tag_msg", .char), ("flags", .char),
   ("devflags", .char), ("q_flags", .char), ("command_length", .short), ("einval_arg", .short), ("autosense_length", .short),
   ("timeout_value", .int), ("data_length", .longlong), ("scsi_id", .longlong), ("lun_id", .longlong), ("buffer", .pointer),
   ("autosense_buffer_ptr", .pointer), ("scsi_cdb", .chars 64), ("world_wide_name", .longlong), ("node_name", .longlong),
   ("variable_cdb_length", .int), ("variable_cdb_ptr", .pointer), ("residual", .longlong)]

end Verif.Spec
