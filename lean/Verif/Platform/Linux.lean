import Verif.Platform.Layout
import Verif.Executer
import Verif.Instruct
/-!
# Model of `linux.py` (the sg and the ioctl executers)

`raw` blocks are byte strings, buffers live in a flat memory, pointers are addresses: what is modelled is what the
kernel is handed and what it hands back.  Simplifications: `logger` calls and message texts are left out; the texts of
the exceptions are not modelled (an exception is its class plus the sense buffer).
-/

namespace Verif.Platform
open Verif.Executer

/-- Exceptions that `_os_receive` hands over instead of data (errors.py:11-28), `S` being the type of decoded sense
objects. -/
inductive DevErr (S : Type) where
  /-- `AsiCheckConditionError(sense_buffer, sense_obj)`; `none` for a sense object that is `None` -/
  | checkCondition (buffer : Bytes) (sense : Option S)
  | scsi
  | queueFull
  | reservationConflict
  deriving DecidableEq, Repr

/-- `_check_condition` (__init__.py:155-157); `parse` is `get_sense_object_from_buffer` (may raise). -/
def checkCondition {S : Type} (parse : Bytes → Py (Option S)) (buf : Bytes) : Py (DevErr S) :=
  match parse buf with
  | .ok s => .ok (.checkCondition buf s)
  | .error e => .error e

/-- A request object: the block (`source_buffer`), the sense, command and data buffers with their addresses and initial
contents. Python keeps the buffers alive as attributes of the object. -/
structure Handle where
  blockAddr : Nat
  block : Bytes
  senseAddr : Nat
  senseInit : Bytes
  cmdAddr : Nat
  cmd : Bytes
  data : Option (Nat × Bytes)
  deriving DecidableEq, Repr

/-- The memory once the request object is built: all its buffers are in place. -/
def Handle.install (h : Handle) (m : Mem) : Mem :=
  let m := writeMem m h.senseAddr h.senseInit
  let m := writeMem m h.cmdAddr h.cmd
  let m := match h.data with
    | some (x, d) => writeMem m x d
    | none => m
  writeMem m h.blockAddr h.block

/-- `request.data_buffer.raw`: `AttributeError` if no data buffer was set. -/
def Handle.dataRaw (h : Handle) (m : Mem) : Py Bytes :=
  match h.data with
  | some (x, d) => .ok (readMem m x d.length)
  | none => .error .attribute

/-- The world of an executer: memory and the rest of the operating system. -/
structure World (κ : Type) where
  mem : Mem
  kernel : κ

/-- A packet number that is negative is in no executer's table; `_process_pending_response` raises the same internal error
for it as for any other unknown number (__init__.py:129-131). -/
def toRecv {O : Type} : Py (O × Int) → Py (O × Nat)
  | .error e => .error e
  | .ok (o, i) => if 0 ≤ i then .ok (o, i.toNat) else .error .asiInternal

namespace Linux

/-- `SGIO._fields_` (linux.py:119-142) -/
def sgioDecl : Decls :=
  [("interface_id", c_int), ("dxfer_direction", c_int), ("cmd_len", c_ubyte), ("mx_sb_len", c_ubyte),
   ("iovec_count", c_ushort), ("dxfer_len", c_uint), ("dxferp", c_void_p), ("cmdp", c_void_p), ("sbp", c_void_p),
   ("timeout", c_uint), ("flags", c_uint), ("pack_id", c_int), ("usr_ptr", c_void_p), ("status", c_ubyte),
   ("masked_status", c_ubyte), ("msg_status", c_ubyte), ("sb_len_wr", c_ubyte), ("host_status", c_ushort),
   ("driver_status", c_ushort), ("resid", c_int), ("duration", c_uint), ("info", c_uint)]

/-- The slot of a field of `SGIO`. -/
def fld (a : Abi) (nm : String) : Slot := slot (layout a none sgioDecl) nm

/-- `SGIO.sizeof()` (linux.py:212-214) -/
def sgioSize (a : Abi) : Nat := sizeOf a none sgioDecl

/-- `SENSE_SIZE` (linux.py:110) -/
def senseSize : Nat := 0xFF

/-- `set_data_buffer` (linux.py:158-165): `some (address, size)` or `None`. -/
def setDataBuffer (a : Abi) (buf : Option (Nat × Nat)) (raw : Bytes) : Bytes :=
  match buf with
  | some (addr, size) => store a (fld a "dxfer_len") size (store a (fld a "dxferp") addr raw)
  | none => store a (fld a "dxfer_len") 0 (store a (fld a "dxferp") 0 raw)

/-- `SGIO.create` (linux.py:179-203) with `init_sense_buffer` (148-151) and `init_command_buffer` (153-156).
`al` are the addresses the allocator returns. -/
def create (a : Abi) (al : Alloc) (packId : Nat) (c : Req) (timeout : Int) : Handle :=
  let raw := zeros (sgioSize a)
  let raw := store a (fld a "interface_id") 0x53 raw
  let raw := store a (fld a "pack_id") packId raw
  let raw := store a (fld a "sbp") al.sense raw
  let raw := store a (fld a "mx_sb_len") senseSize raw
  let raw := store a (fld a "cmdp") al.cmd raw
  let raw := store a (fld a "cmd_len") c.cdb.length raw
  let raw := store a (fld a "timeout") timeout raw
  let (raw, data) :=
    match c with
    | .read _ len =>
      if len > 0 then
        (setDataBuffer a (some (al.data, len.toNat)) (store a (fld a "dxfer_direction") (-3) raw),
          some (al.data, zeros len.toNat))
      else (setDataBuffer a none (store a (fld a "dxfer_direction") (-1) raw), none)
    | .write _ d =>
      (setDataBuffer a (some (al.data, d.length)) (store a (fld a "dxfer_direction") (-2) raw), some (al.data, d))
  let raw := store a (fld a "flags") 1 raw
  { blockAddr := al.block, block := raw, senseAddr := al.sense, senseInit := zeros senseSize, cmdAddr := al.cmd,
    cmd := c.cdb, data := data }

variable {S : Type}

/-- `data` of a successful command (linux.py:266-270). A request that is not pending is `None`: `AttributeError`. -/
def successData (a : Abi) (m : Mem) : Option Handle → Py (Option Bytes)
  | none => .error .attribute
  | some h =>
    let request := readMem m h.blockAddr h.block.length
    if load a (fld a "dxfer_direction") request = -3 ∧ load a (fld a "dxfer_len") request ≠ 0 then
      match h.dataRaw m with
      | .ok d => .ok (some d)
      | .error e => .error e
    else .ok none

/-- `_handle_raw_response` (linux.py:228-270). `getOs` is `_get_os_data`; `m` the memory at that time.
`from_string` (205-210) on a response shorter than the block is a `ValueError`. -/
def handleRawResponse (a : Abi) (parse : Bytes → Py (Option S)) (getOs : Int → Option Handle) (m : Mem) (raw : Bytes) :
    Py (Outcome (Option Bytes) (DevErr S) × Int) :=
  if raw.length < sgioSize a then .error .valueError
  else
    let packetId := load a (fld a "pack_id") raw
    let request := getOs packetId
    let status := (load a (fld a "status") raw).toNat
    let driver := (load a (fld a "driver_status") raw).toNat
    let host := (load a (fld a "host_status") raw).toNat
    if status &&& 2 ≠ 0 ∨ driver &&& 8 ≠ 0 then
      match checkCondition parse (readMem m (load a (fld a "sbp") raw).toNat senseSize) with
      | .ok e => .ok (.exc e, packetId)
      | .error e => .error e
    else if status ≠ 0 then
      if host = 0x07 then .ok (.exc .queueFull, packetId)
      else if host = 0x18 then .ok (.exc .reservationConflict, packetId)
      else .ok (.exc .scsi, packetId)
    else if driver &&& 0x0F ≠ 0 then .ok (.exc .scsi, packetId)
    else if host ≠ 0 then .ok (.exc .scsi, packetId)
    else
      match successData a m request with
      | .ok d => .ok (.data d, packetId)
      | .error e => .error e

/-- The sg character device: `os.write(fd, block)` and `os.read(fd, n)` (unix.py:15-27); both may fail, both may touch memory
(the driver fills the sense and the data buffers). -/
structure SgDriver (κ : Type) where
  write : Bytes → World κ → Py Unit × World κ
  read : Nat → World κ → Py Bytes × World κ

/-- `_get_os_data` of a packet number that may be negative: `dict.get` finds nothing. -/
def getOs {K : Type} (s : St Handle K) (i : Int) : Option Handle :=
  if 0 ≤ i then getOsData s i.toNat else none

variable {κ K : Type}

/-- `_os_prepare_to_send` (linux.py:222-223) -/
def prepare (a : Abi) (alloc : Nat → Alloc) (timeout : Int) (c : Req) (packetIndex : Nat) : Py Handle :=
  .ok (create a (alloc packetIndex) packetIndex c timeout)

/-- `_os_send` of the sg executer (linux.py:225-226). The buffers built by `prepare` are put in place first. -/
def sgSend (k : SgDriver κ) (h : Handle) (w : World κ) : Py Unit × World κ :=
  k.write h.block { w with mem := h.install w.mem }

/-- `_os_receive` of the sg executer (linux.py:272-274) -/
def sgReceive (a : Abi) (parse : Bytes → Py (Option S)) (k : SgDriver κ) (s : St Handle K) (w : World κ) :
    Py (Outcome (Option Bytes) (DevErr S) × Nat) × World κ :=
  match k.read (sgioSize a) w with
  | (.error e, w') => (.error e, w')
  | (.ok raw, w') => (toRecv (handleRawResponse a parse (getOs s) w'.mem raw), w')

/-- The world of the ioctl executer: the attribute `self.buffer` (linux.py:287; reading it before the first send is an
`AttributeError`). -/
structure IoctlWorld (κ : Type) where
  world : World κ
  buffer : Option Bytes

/-- `ioctl(fd, SG_IO, block)` on an immutable `bytes` object: the kernel works on a private copy of the block, so the statuses it
writes there (the returned `Bytes`) are not seen by the caller. -/
structure IoctlDriver (κ : Type) where
  ioctl : Bytes → World κ → Py Bytes × World κ

/-- `_os_send` of the ioctl executer (linux.py:285-289) -/
def ioctlSend (k : IoctlDriver κ) (h : Handle) (w : IoctlWorld κ) : Py Unit × IoctlWorld κ :=
  match k.ioctl h.block { w.world with mem := h.install w.world.mem } with
  | (.error e, w') => (.error e, { world := w', buffer := some h.block })
  | (.ok _, w') => (.ok (), { world := w', buffer := some h.block })

/-- `_os_receive` of the ioctl executer (linux.py:291-293) -/
def ioctlReceive (a : Abi) (parse : Bytes → Py (Option S)) (s : St Handle K) (w : IoctlWorld κ) :
    Py (Outcome (Option Bytes) (DevErr S) × Nat) × IoctlWorld κ :=
  match w.buffer with
  | none => (.error .attribute, w)
  | some raw => (toRecv (handleRawResponse a parse (getOs s) w.world.mem raw), w)

end Linux
end Verif.Platform
