import Verif.Platform.Linux
/-!
# Model of the Windows executer (win32.py:265-387)

`DeviceIoControl` is passed the block by reference for input and output, so the driver updates it in place in memory.
-/

namespace Verif.Platform.Win32
open Verif.Executer

/-- `SCSIPassThroughDirect._fields_` (win32.py:277-313; `_pack_ = 1`). The paddings depend on `is_python_64bit`
(win32.py:273-275), here: on the size of a pointer. -/
def sptDecl (a : Abi) : Decls :=
  let pad := if a.ptr = 8 then 4 else 0
  [("Length", c_ushort), ("ScsiStatus", c_ubyte), ("PathId", c_ubyte), ("TargetId", c_ubyte), ("Lun", c_ubyte),
   ("CdbLength", c_ubyte), ("SenseInfoLength", c_ubyte), ("DataIn", c_ubyte), ("padding1", .bytes 3),
   ("DataTransferLength", c_ulong), ("TimeOutValue", c_ulong), ("padding2", .bytes pad), ("DataBuffer", c_void_p),
   ("SenseInfoOffset", c_ulong), ("Cdb", .bytes 16), ("padding3", .bytes pad), ("sense_buffer", .bytes 0xFF)]

/-- The slot of a field. -/
def fld (a : Abi) (nm : String) : Slot := slot (layout a (some 1) (sptDecl a)) nm

/-- `sizeof(SCSIPassThroughDirect)` -/
def sptSize (a : Abi) : Nat := sizeOf a (some 1) (sptDecl a)

/-- `SENSE_SIZE` (win32.py:271) -/
def senseSize : Nat := 0xFF

/-- `IOCTL_SCSI_PASS_THROUGH_DIRECT` (win32.py:265) -/
def ioctlCode : Nat := 0x0004D014

/-- The loop of win32.py:341-342: assigning past the 16 byte array is an `IndexError`. -/
def storeCdb (a : Abi) : Nat → Bytes → Bytes → Py Bytes
  | _, [], raw => .ok raw
  | i, b :: bs, raw =>
    if i < (fld a "Cdb").size then storeCdb a (i + 1) bs (storeAt (fld a "Cdb") i b raw) else .error .indexError

/-- A request object: the block and the data buffer, and the attribute `packet_id`. The sense area is part of the block,
the command is copied into it (the fields `senseAddr`, `cmdAddr` of the other platforms' objects have no counterpart). -/
structure Spt where
  packetId : Nat
  blockAddr : Nat
  block : Bytes
  data : Option (Nat × Bytes)
  deriving DecidableEq, Repr

/-- The memory once the request object is built. -/
def Spt.install (h : Spt) (m : Mem) : Mem :=
  let m := match h.data with
    | some (x, d) => writeMem m x d
    | none => m
  writeMem m h.blockAddr h.block

/-- `set_data_buffer` (win32.py:315-322) -/
def setDataBuffer (a : Abi) (buf : Option (Nat × Nat)) (raw : Bytes) : Bytes :=
  match buf with
  | some (addr, size) => store a (fld a "DataTransferLength") size (store a (fld a "DataBuffer") addr raw)
  | none => store a (fld a "DataBuffer") 0 (store a (fld a "DataTransferLength") 0 raw)

/-- `SCSIPassThroughDirect.create` (win32.py:327-358) -/
def create (a : Abi) (al : Alloc) (packetId : Nat) (c : Req) : Py Spt :=
  let raw := zeros (sptSize a)
  let raw := store a (fld a "Length") (sptSize a - senseSize : Nat) raw
  let raw := store a (fld a "PathId") 0 raw
  let raw := store a (fld a "TargetId") 0 raw
  let raw := store a (fld a "Lun") 0 raw
  let raw := store a (fld a "CdbLength") c.cdb.length raw
  let raw := store a (fld a "SenseInfoLength") senseSize raw
  let raw := store a (fld a "TimeOutValue") 10 raw
  let raw := store a (fld a "SenseInfoOffset") (sptSize a - senseSize : Nat) raw
  match storeCdb a 0 c.cdb raw with
  | .error e => .error e
  | .ok raw =>
    match c with
    | .read _ len =>
      if len > 0 then
        .ok { packetId := packetId, blockAddr := al.block, data := some (al.data, zeros len.toNat),
              block := setDataBuffer a (some (al.data, len.toNat)) (store a (fld a "DataIn") 1 raw) }
      else
        .ok { packetId := packetId, blockAddr := al.block, data := none,
              block := setDataBuffer a none (store a (fld a "DataIn") 2 raw) }
    | .write _ d =>
      if d.length > 0 then
        .ok { packetId := packetId, blockAddr := al.block, data := some (al.data, d),
              block := setDataBuffer a (some (al.data, d.length)) (store a (fld a "DataIn") 0 raw) }
      else
        .ok { packetId := packetId, blockAddr := al.block, data := none, block := store a (fld a "DataIn") 2 raw }

variable {S κ K : Type}

/-- The executer's world: memory, the rest of the operating system, and the attribute `incoming_packets`
(win32.py:364), the last appended packet first. -/
structure WinWorld (κ : Type) where
  world : World κ
  incoming : List Spt

/-- `DeviceIoControl(handle, IOCTL_SCSI_PASS_THROUGH_DIRECT, block, …)` on the block at an address; a refusal is raised as
`AsiWin32OSError` (win32.py:129-134). -/
structure PortDriver (κ : Type) where
  ioctl : (code blockAddr size : Nat) → World κ → Py Unit × World κ

/-- `_os_prepare_to_send` (win32.py:366-367) -/
def prepare (a : Abi) (alloc : Nat → Alloc) (c : Req) (packetId : Nat) : Py Spt := create a (alloc packetId) packetId c

/-- `_os_send` (win32.py:369-373) -/
def osSend (a : Abi) (k : PortDriver κ) (h : Spt) (w : WinWorld κ) : Py Unit × WinWorld κ :=
  match k.ioctl ioctlCode h.blockAddr (sptSize a) { w.world with mem := h.install w.world.mem } with
  | (.error e, w') => (.error e, { w with world := w' })
  | (.ok (), w') => (.ok (), { world := w', incoming := h :: w.incoming })

/-- `data_buffer.raw[0:n]` -/
def cutData (h : Spt) (m : Mem) (n : Nat) : Py Bytes :=
  match h.data with
  | some (x, d) => .ok ((readMem m x d.length).take n)
  | none => .error .attribute

/-- The classification of a completed packet (win32.py:377-387). -/
def classify (a : Abi) (parse : Bytes → Py (Option S)) (h : Spt) (m : Mem) : Py (Outcome (Option Bytes) (DevErr S)) :=
  let raw := readMem m h.blockAddr h.block.length
  let status := (load a (fld a "ScsiStatus") raw).toNat
  if status ≠ 0 then
    if status = 2 then
      match checkCondition parse (slice raw (fld a "sense_buffer").off ((fld a "sense_buffer").off + senseSize)) with
      | .ok e => .ok (.exc e)
      | .error e => .error e
    else .ok (.exc .scsi)
  else if load a (fld a "DataIn") raw = 1 ∧ load a (fld a "DataTransferLength") raw ≠ 0 then
    match cutData h m (load a (fld a "DataTransferLength") raw).toNat with
    | .ok d => .ok (.data (some d))
    | .error e => .error e
  else .ok (.data none)

/-- `_os_receive` (win32.py:375-387); popping from the empty list is an `IndexError`. -/
def osReceive (a : Abi) (parse : Bytes → Py (Option S)) (_ : St Spt K) (w : WinWorld κ) :
    Py (Outcome (Option Bytes) (DevErr S) × Nat) × WinWorld κ :=
  match w.incoming with
  | [] => (.error .indexError, w)
  | h :: r =>
    match classify a parse h w.world.mem with
    | .ok o => (.ok (o, h.packetId), { w with incoming := r })
    | .error e => (.error e, { w with incoming := r })

end Verif.Platform.Win32
