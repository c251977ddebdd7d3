import Verif.Platform.Linux
/-!
# Model of the AIX executer (aix.py:176-411)

The `ioctl` is passed the address of the block, so the driver updates it in place in memory.
-/

namespace Verif.Platform.Aix
open Verif.Executer

/-- `sc_passthru._fields_` (aix.py:246-275) -/
def decl : Decls :=
  [("version", c_ushort), ("status_validity", c_ubyte), ("scsi_bus_status", c_ubyte), ("adap_status_type", c_ubyte),
   ("adapter_status", c_ubyte), ("adap_set_flags", c_ubyte), ("add_device_status", c_ubyte), ("adap_q_status", c_ubyte),
   ("q_tag_msg", c_ubyte), ("flags", c_ubyte), ("devflags", c_ubyte), ("q_flags", c_ubyte), ("command_length", c_ushort),
   ("einval_arg", c_ushort), ("autosense_length", c_ushort), ("timeout_value", c_uint), ("data_length", c_ulonglong),
   ("scsi_id", c_ulonglong), ("lun_id", c_ulonglong), ("buffer", c_void_p), ("autosense_buffer_ptr", c_void_p),
   ("scsi_cdb", .bytes 64), ("world_wide_name", c_ulonglong), ("node_name", c_ulonglong), ("variable_cdb_length", c_uint),
   ("variable_cdb_ptr", c_void_p), ("residual", c_ulonglong)]

/-- The slot of a field. -/
def fld (a : Abi) (nm : String) : Slot := slot (layout a none decl) nm

/-- `sizeof(sc_passthru)` -/
def size (a : Abi) : Nat := sizeOf a none decl

/-- `SENSE_SIZE` (linux.py:110, imported at aix.py:3) -/
def senseSize : Nat := 0xFF

/-- `SC_PASSTHRU_CDB_LEN` (aix.py:179) -/
def cdbLen : Nat := 64

/-- `for i in range(n): self.scsi_cdb[i] = ...` over the given bytes (aix.py:288-291). -/
def storeCdb (a : Abi) : Nat → Bytes → Bytes → Bytes
  | _, [], raw => raw
  | i, b :: bs, raw => storeCdb a (i + 1) bs (storeAt (fld a "scsi_cdb") i b raw)

/-- `init_command_buffer` (aix.py:286-292): the array is zeroed, then takes at most 64 bytes of the command;
the length field takes the command's full length. -/
def initCommandBuffer (a : Abi) (cmd : Bytes) (raw : Bytes) : Bytes :=
  let raw := storeCdb a 0 (zeros cdbLen) raw
  let raw := storeCdb a 0 (cmd.take cdbLen) raw
  store a (fld a "command_length") cmd.length raw

/-- `set_data_buffer` (aix.py:294-300) -/
def setDataBuffer (a : Abi) (buf : Option (Nat × Nat)) (raw : Bytes) : Bytes :=
  match buf with
  | some (addr, sz) => store a (fld a "data_length") sz (store a (fld a "buffer") addr raw)
  | none => store a (fld a "data_length") 0 raw

/-- `sc_passthru.create` (aix.py:309-331) -/
def create (a : Abi) (al : Alloc) (c : Req) (timeout : Int) : Handle :=
  let raw := zeros (size a)
  let raw := store a (fld a "version") 2 raw
  let raw := store a (fld a "autosense_buffer_ptr") al.sense raw
  let raw := store a (fld a "autosense_length") senseSize raw
  let raw := initCommandBuffer a c.cdb raw
  let raw := store a (fld a "timeout_value") timeout raw
  let raw := store a (fld a "devflags") 1 raw
  let (raw, data) :=
    match c with
    | .read _ len =>
      if len > 0 then
        (setDataBuffer a (some (al.data, len.toNat)) (store a (fld a "flags") 1 raw), some (al.data, zeros len.toNat))
      else (setDataBuffer a none (store a (fld a "flags") 0 raw), none)
    | .write _ d => (setDataBuffer a (some (al.data, d.length)) (store a (fld a "flags") 0 raw), some (al.data, d))
  { blockAddr := al.block, block := raw, senseAddr := al.sense, senseInit := zeros senseSize, cmdAddr := al.cmd,
    cmd := c.cdb, data := data }

variable {S κ K : Type}

/-- The executer's world; `buffer` is the attribute `self.buffer` (absent before the first send). -/
structure AixWorld (κ : Type) where
  world : World κ
  buffer : Option Bytes

/-- `ioctl(fd, DK_PASSTHRU, address)`: tells whether the call failed; the driver works on the block in memory. -/
structure DiskDriver (κ : Type) where
  ioctl : (code blockAddr : Nat) → World κ → Bool × World κ

/-- `DK_PASSTHRU` (aix.py:176) -/
def dkPassthru : Nat := 23

/-- The two functions `get_ioctl_function` may return (aix.py:344-361): `fcntl.ioctl`, which raises `IOError` on failure, or
libc's own `ioctl`, which returns -1. -/
inductive Binding where
  | fcntl
  | libc
  deriving DecidableEq, Repr

/-- `_os_prepare_to_send` (aix.py:369-370) -/
def prepare (a : Abi) (alloc : Nat → Alloc) (timeout : Int) (c : Req) (packetIndex : Nat) : Py Handle :=
  .ok (create a (alloc packetIndex) c timeout)

/-- `OverflowError` of `fcntl.ioctl`, which is not an `IOError`. -/
def overflowError : PyErr := .other 2

/-- Whether the binding can pass the address (aix.py:345-347): `fcntl.ioctl` takes an integer argument for a C `int` and raises
`OverflowError` if it does not fit; libc's `ioctl` takes a pointer. -/
def Passes (b : Binding) (addr : Nat) : Prop := b = .fcntl → addr < 2 ^ 31

instance (b : Binding) (addr : Nat) : Decidable (Passes b addr) := inferInstanceAs (Decidable (_ → _))

/-- `_os_send` (aix.py:372-384). Only `IOError` is caught. -/
def osSend (a : Abi) (b : Binding) (k : DiskDriver κ) (h : Handle) (w : AixWorld κ) : Py Unit × AixWorld κ :=
  if Passes b h.blockAddr then
    let (failed, w') := k.ioctl dkPassthru h.blockAddr { w.world with mem := h.install w.world.mem }
    let raw := readMem w'.mem h.blockAddr h.block.length
    if failed ∧ b = .fcntl then
      if load a (fld a "einval_arg") raw ≠ 0 then (.error .asiOs, { w with world := w' })
      else if load a (fld a "status_validity") raw = 0 then (.error .asiOs, { w with world := w' })
      else (.ok (), { world := w', buffer := some raw })
    else (.ok (), { world := w', buffer := some raw })
  else (.error overflowError, { w with world := { w.world with mem := h.install w.world.mem } })

/-- `data` of a successful command (aix.py:403-405). -/
def successData (a : Abi) (m : Mem) : Option Handle → Py (Option Bytes)
  | none => .error .attribute
  | some h =>
    let request := readMem m h.blockAddr h.block.length
    if (load a (fld a "flags") request).toNat &&& 1 ≠ 0 ∧ load a (fld a "data_length") request ≠ 0 then
      match h.dataRaw m with
      | .ok d => .ok (some d)
      | .error e => .error e
    else .ok none

/-- `_handle_raw_response` (aix.py:386-407). The packet number is always 0; `request` is `_get_os_data(0)`. -/
def handleRawResponse (a : Abi) (parse : Bytes → Py (Option S)) (request : Option Handle) (m : Mem) (raw : Bytes) :
    Py (Outcome (Option Bytes) (DevErr S) × Nat) :=
  if raw.length < size a then .error .valueError
  else
    let validity := (load a (fld a "status_validity") raw).toNat
    if validity ≠ 0 then
      if validity = 1 then
        let status := (load a (fld a "scsi_bus_status") raw).toNat &&& 0x1e
        if status &&& 2 ≠ 0 then
          match checkCondition parse (readMem m (load a (fld a "autosense_buffer_ptr") raw).toNat senseSize) with
          | .ok e => .ok (.exc e, 0)
          | .error e => .error e
        else .ok (.exc .scsi, 0)
      else if validity = 2 then .ok (.exc .scsi, 0)
      else .ok (.exc .scsi, 0)
    else
      match successData a m request with
      | .ok d => .ok (.data d, 0)
      | .error e => .error e

/-- `_os_receive` (aix.py:409-411) -/
def osReceive (a : Abi) (parse : Bytes → Py (Option S)) (s : St Handle K) (w : AixWorld κ) :
    Py (Outcome (Option Bytes) (DevErr S) × Nat) × AixWorld κ :=
  match w.buffer with
  | none => (.error .attribute, w)
  | some raw => (handleRawResponse a parse (getOsData s 0) w.world.mem raw, w)

end Verif.Platform.Aix
